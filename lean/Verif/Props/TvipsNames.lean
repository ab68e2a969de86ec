import Verif.Model.TvipsNames
import Verif.Props.Tvips
import Verif.Lemmas.Edax
/-!
C167 (names of the files of TVIPS recordings).
-/
namespace Verif.Props.TvipsNames
open Verif Verif.Tvips Verif.TvipsNames
open Verif.Edax (IsFolder)
open Verif.Props.Tvips (Recording sampleHeader sampleFh sampleFrames sample_recording)

/-! ### Specification -/

/-- A number with three digits, or more. -/
def three (i : Nat) : Text := if i < 10 then '0' :: '0' :: decChars i else if i < 100 then '0' :: decChars i else decChars i

/-- The extension of TVIPS files, in any case. -/
def IsTvips (e : Text) : Prop := e.map Char.toLower = ['t', 'v', 'i', 'p', 's']

/-- A file of a recording. -/
def part (base e : Text) (i : Nat) : Text := base ++ '_' :: three i ++ '.' :: e

/-- A folder, and a name in it without extension: no end of a line in them, and not only dots. -/
structure Named (pre stem : Text) : Prop where
  folder : IsFolder pre
  slash : '/' ∉ stem
  dots : ∃ c ∈ stem, c ≠ '.'
  line : '\n' ∉ pre ++ stem

/-- Names that the user can give for a recording: without number, or that of the first file. -/
def Given (base e name : Text) : Prop := (name = base ++ '.' :: e ∧ ¬ ['_', '0', '0', '0'] <:+ base) ∨ name = base ++ '_' :: '0' :: '0' :: '0' :: '.' :: e

/-! ### Lemmas -/

theorem length_small {n : Nat} (h : n < 10) : (decChars n).length = 1 := by
  rw [decChars_eq, if_pos h]
  rfl

theorem length_step {n : Nat} (h : ¬ n < 10) : (decChars n).length = (decChars (n / 10)).length + 1 := by
  rw [decChars_eq, if_neg h, List.length_append]
  rfl

theorem pad3_three (i : Nat) : pad3 i = three i := by
  unfold pad3 three
  by_cases h1 : i < 10
  · rw [if_pos h1, length_small h1]
    rfl
  · by_cases h2 : i < 100
    · rw [if_neg h1, if_pos h2, length_step h1, length_small (by omega)]
      rfl
    · have : 1 ≤ (decChars (i / 10 / 10)).length := List.length_pos_iff.2 (decChars_ne_nil _)
      rw [if_neg h1, if_neg h2, length_step h1, length_step (by omega), show 3 - ((decChars (i / 10 / 10)).length + 1 + 1) = 0 by omega]
      rfl

theorem decVal_zero (l : Text) : decVal ('0' :: l) = decVal l := rfl

theorem three_inj {i j : Nat} (h : three i = three j) : i = j := by
  have : ∀ n, decVal (three n) = n := by
    intro n
    unfold three
    split
    · rw [decVal_zero, decVal_zero, decVal_decChars]
    · split
      · rw [decVal_zero, decVal_decChars]
      · exact decVal_decChars n
  rw [← this i, h, this]

theorem part_inj {base e : Text} {i j : Nat} (h : part base e i = part base e j) : i = j := by
  unfold part at h
  rw [List.append_assoc, List.append_assoc] at h
  have h1 := List.append_cancel_left h
  rw [List.cons_append, List.cons_append] at h1
  exact three_inj (List.append_cancel_right (List.cons.inj h1).2)

theorem partName_eq (base e : Text) (i : Nat) : partName base ('.' :: e) i = part base e i := by
  unfold partName part
  rw [pad3_three]

theorem tvips_not {e : Text} (h : IsTvips e) (c : Char) (hc : c.toLower = c) (hn : c ∉ ['t', 'v', 'i', 'p', 's']) : c ∉ e := by
  intro hm
  have := List.mem_map_of_mem (f := Char.toLower) hm
  rw [hc, show e.map Char.toLower = _ from h] at this
  exact hn this

theorem tvips_length {e : Text} (h : IsTvips e) : e.length = 5 := by
  have := congrArg List.length (show e.map Char.toLower = _ from h)
  rwa [List.length_map] at this

/-! #### Writing -/

theorem split_name {pre stem e : Text} (hn : Named pre stem) (he : IsTvips e) : Edax.splitExt (pre ++ (stem ++ '.' :: e)) = (pre ++ stem, '.' :: e) :=
  Verif.Edax.splitExt_of hn.folder hn.slash hn.dots (tvips_not he '/' rfl (by decide)) (tvips_not he '.' rfl (by decide))

theorem split_first {pre stem e : Text} (hn : Named pre stem) (he : IsTvips e) :
    Edax.splitExt (pre ++ stem ++ '_' :: '0' :: '0' :: '0' :: '.' :: e) = (pre ++ (stem ++ ['_', '0', '0', '0']), '.' :: e) := by
  have := Verif.Edax.splitExt_of (pre := pre) (stem := stem ++ ['_', '0', '0', '0']) (ext := e) hn.folder (by simp [hn.slash]) ⟨'_', by simp, by decide⟩
    (tvips_not he '/' rfl (by decide)) (tvips_not he '.' rfl (by decide))
  rw [← this]
  simp

theorem endsWith_iff (s t : Text) : endsWith s t = true ↔ s <:+ t := by
  unfold endsWith
  rw [decide_eq_true_iff]
  constructor
  · intro h
    rw [← h]
    exact List.drop_suffix _ _
  · rintro ⟨a, rfl⟩
    rw [List.length_append, Nat.add_sub_cancel, List.drop_left]

theorem base_of {pre stem e name : Text} (hn : Named pre stem) (he : IsTvips e) (hg : Given (pre ++ stem) e name) : writeBase name = (pre ++ stem, '.' :: e) := by
  unfold writeBase
  rcases hg with ⟨rfl, hs⟩ | rfl
  · rw [List.append_assoc, split_name hn he]
    dsimp only
    rw [if_neg]
    rw [endsWith_iff]
    exact hs
  · rw [split_first hn he]
    dsimp only
    rw [← List.append_assoc, show "_000".toList = ['_', '0', '0', '0'] from rfl, if_pos ((endsWith_iff ['_', '0', '0', '0'] _).2 (List.suffix_append _ _))]
    rw [List.length_append, show (['_', '0', '0', '0'] : Text).length = 4 from rfl, Nat.add_sub_cancel, List.take_left]

theorem save_get {base e : Text} : ∀ (files : List (List UInt8)) (i : Nat) (fs : Files) (t : Text),
    getKw t (saveParts base ('.' :: e) i files fs) = getKw t fs ∧ (∀ k < files.length, t ≠ part base e (i + k)) ∨
      ∃ k, k < files.length ∧ t = part base e (i + k) ∧ getKw t (saveParts base ('.' :: e) i files fs) = files[k]?
  | [], i, fs, t => .inl ⟨rfl, fun k hk => by simp at hk⟩
  | f :: rest, i, fs, t => by
    unfold saveParts
    rcases save_get rest (i + 1) (setKw (partName base ('.' :: e) i) f fs) t with ⟨h1, h2⟩ | ⟨k, hk, ht, hg⟩
    · by_cases ht : t = part base e i
      · right
        refine ⟨0, by simp, by simpa using ht, ?_⟩
        rw [h1, partName_eq, getKw_setKw, if_pos ht]
        rfl
      · left
        refine ⟨?_, fun k hk => ?_⟩
        · rw [h1, partName_eq, getKw_setKw, if_neg ht]
        · cases k with
          | zero => exact ht
          | succ k => rw [show i + (k + 1) = i + 1 + k by omega]; exact h2 k (by simpa using hk)
    · right
      exact ⟨k + 1, by simpa using hk, by rw [ht]; congr 1; omega, by rw [hg]; rfl⟩

/-! #### Reading -/

theorem partAt_none : ∀ (t : Text), '_' ∉ t → partAt t = none := by
  intro t h
  unfold partAt
  split
  · exact absurd List.mem_cons_self h
  · rfl

theorem findPart_none : ∀ (t : Text) (s : Bool), '_' ∉ t → findPart s t = none
  | [], _, _ => rfl
  | c :: t, s, h => by
    unfold findPart
    rw [findPart_none t true (fun hm => h (List.mem_cons_of_mem _ hm)), partAt_none _ h]
    cases s <;> simp

theorem digit_ne {c : Char} (h : isDigit c = true) : c ≠ '_' ∧ c ≠ '\n' := by
  constructor
  · rintro rfl
    exact absurd h (by decide)
  · rintro rfl
    exact absurd h (by decide)

theorem findPart_at {a b c : Char} {e : Text} (ha : isDigit a = true) (hb : isDigit b = true) (hc : isDigit c = true) (he : IsTvips e) :
    findPart true ('_' :: a :: b :: c :: '.' :: e) = some ([a, b, c], e) := by
  have hn : '_' ∉ a :: b :: c :: '.' :: e := by
    intro h
    rcases List.mem_cons.1 h with h | h
    · exact (digit_ne ha).1 h.symm
    rcases List.mem_cons.1 h with h | h
    · exact (digit_ne hb).1 h.symm
    rcases List.mem_cons.1 h with h | h
    · exact (digit_ne hc).1 h.symm
    rcases List.mem_cons.1 h with h | h
    · exact absurd h (by decide)
    · exact tvips_not he '_' rfl (by decide) h
  unfold findPart
  rw [if_neg (by decide), findPart_none _ true hn]
  dsimp only
  rw [if_pos rfl]
  show (if (isDigit a && isDigit b && isDigit c) = true then some ([a, b, c], e.takeWhile (· ≠ '\n')) else none) = _
  rw [ha, hb, hc]
  have : e.takeWhile (· ≠ '\n') = e := by
    have key : ∀ l : Text, '\n' ∉ l → l.takeWhile (· ≠ '\n') = l := by
      intro l
      induction l with
      | nil => intro _; rfl
      | cons x l ih =>
        intro hx
        have hne : decide (x ≠ '\n') = true := decide_eq_true fun h => hx (by rw [h]; exact List.mem_cons_self)
        rw [List.takeWhile_cons_of_pos (p := fun x => decide (x ≠ '\n')) hne, ih (fun h => hx (List.mem_cons_of_mem _ h))]
    exact key e (tvips_not he '\n' rfl (by decide))
  rw [this]
  rfl

theorem findPart_append {t : Text} {r : Text × Text} (h : findPart true t = some r) : ∀ (p : Text) (s : Bool), '\n' ∉ p → (p ≠ [] ∨ s = true) → findPart s (p ++ t) = some r
  | [], s, _, hp => by
    rcases hp with hp | hp
    · exact absurd rfl hp
    · rw [hp]
      exact h
  | c :: p, s, hn, _ => by
    rw [List.cons_append]
    unfold findPart
    rw [if_neg (fun hc => hn (by rw [hc]; exact List.mem_cons_self)), findPart_append h p true (fun hm => hn (List.mem_cons_of_mem _ hm)) (.inr rfl)]

theorem check_name {p e : Text} {a b c : Char} (hp : p ≠ []) (hl : '\n' ∉ p) (ha : isDigit a = true) (hb : isDigit b = true) (hc : isDigit c = true) (he : IsTvips e) :
    checkName (p ++ '_' :: a :: b :: c :: '.' :: e) = if decVal [a, b, c] ≠ 0 then .error .valueError else .ok () := by
  unfold checkName
  rw [findPart_append (findPart_at ha hb hc he) p false hl (.inl hp)]
  dsimp only
  rw [if_neg (by rw [show e.map Char.toLower = _ from he]; exact fun h => h rfl)]

/-- The number of files in a folder bounds the number of parts. -/
theorem parts_bound {base e : Text} {n : Nat} {fs : Files} (h : ∀ k < n, (getKw (part base e k) fs).isSome) : n ≤ fs.length := by
  have hsub : (List.range n).map (part base e) ⊆ fs.map Prod.fst := by
    intro t ht
    obtain ⟨k, hk, rfl⟩ := List.mem_map.1 ht
    by_contra hc
    have := h k (List.mem_range.1 hk)
    rw [getKw_none hc] at this
    cases this
  have hnd : ((List.range n).map (part base e)).Nodup := List.Nodup.map (fun _ _ h => part_inj h) List.nodup_range
  have := (hnd.subperm hsub).length_le
  simpa using this

theorem other_parts {base e : Text} {fs : Files} {b : Text} (hb : b = base ++ ['_']) : ∀ (files : List (List UInt8)) (i fuel : Nat), files.length < fuel →
    (∀ k < files.length, getKw (part base e (i + k)) fs = files[k]?) → getKw (part base e (i + files.length)) fs = none →
    otherParts fs b ('.' :: e) fuel i = files
  | _, _, 0, h, _, _ => by omega
  | [], i, fuel + 1, _, _, hn => by
    unfold otherParts
    rw [hb, pad3_three, show base ++ ['_'] ++ three i ++ '.' :: e = part base e i by simp [part]]
    simp only [List.length_nil, Nat.add_zero] at hn
    rw [hn]
  | f :: rest, i, fuel + 1, hl, hk, hn => by
    unfold otherParts
    rw [hb, pad3_three, show base ++ ['_'] ++ three i ++ '.' :: e = part base e i by simp [part]]
    have h0 := hk 0 (by simp)
    simp only [Nat.add_zero, List.getElem?_cons_zero] at h0
    rw [h0]
    dsimp only
    rw [← hb, other_parts hb rest (i + 1) fuel (by simpa using hl) (fun k hk' => by
      have := hk (k + 1) (by simpa using hk')
      rw [List.getElem?_cons_succ] at this
      rw [← this]
      congr 2
      omega) (by rw [← hn]; congr 2; simp; omega)]

/-! ### C167 -/

/-- C167: a recording that is written under a name (without number, or the name of its first file) is in the files `name_000`, `name_001` and so on, in this order;
other files are left alone. -/
theorem C167_written {pre stem e name : Text} (hn : Named pre stem) (he : IsTvips e) (hg : Given (pre ++ stem) e name) (files : List (List UInt8)) (fs : Files) :
    (∀ k < files.length, getKw (part (pre ++ stem) e k) (save name files fs) = files[k]?) ∧
    (∀ t, (∀ k < files.length, t ≠ part (pre ++ stem) e k) → getKw t (save name files fs) = getKw t fs) := by
  unfold save
  rw [base_of hn he hg]
  constructor
  · intro k hk
    rcases save_get (base := pre ++ stem) (e := e) files 0 fs (part (pre ++ stem) e k) with ⟨_, h2⟩ | ⟨j, _, h3, h4⟩
    · exact absurd (by rw [Nat.zero_add]) (h2 k hk)
    · rw [Nat.zero_add] at h3
      rw [← part_inj h3] at h4
      exact h4
  · intro t ht
    rcases save_get (base := pre ++ stem) (e := e) files 0 fs t with ⟨h1, _⟩ | ⟨j, h2, h3, _⟩
    · exact h1
    · rw [Nat.zero_add] at h3
      exact absurd h3 (ht j h2)

/-- C167: a name with a number is accepted if the number is zero, and rejected otherwise. -/
theorem C167_first {p e : Text} {a b c : Char} (hp : p ≠ []) (hl : '\n' ∉ p) (ha : isDigit a = true) (hb : isDigit b = true) (hc : isDigit c = true) (he : IsTvips e) :
    (a = '0' ∧ b = '0' ∧ c = '0' → checkName (p ++ '_' :: a :: b :: c :: '.' :: e) = .ok ()) ∧
    (¬ (a = '0' ∧ b = '0' ∧ c = '0') → ∀ fs, readNamed fs (p ++ '_' :: a :: b :: c :: '.' :: e) = .error .valueError) := by
  have h := check_name hp hl ha hb hc he
  constructor
  · rintro ⟨rfl, rfl, rfl⟩
    exact h
  · intro hz fs
    have hv : decVal [a, b, c] ≠ 0 := by
      intro h0
      refine hz ?_
      unfold isDigit at ha hb hc
      rw [decide_eq_true_iff] at ha hb hc
      have h1 : decVal [a, b, c] = 10 * (10 * (10 * 0 + (a.toNat - 48)) + (b.toNat - 48)) + (c.toNat - 48) := rfl
      have key : ∀ x : Char, x.toNat = 48 → x = '0' := fun x hx => by
        rw [← Char.ofNat_toNat x, hx]
      exact ⟨key a (by omega), key b (by omega), key c (by omega)⟩
    rw [if_pos hv] at h
    unfold readNamed parts
    rw [h]
    rfl

/-- C167: other names are rejected. -/
theorem C167_rejects {name : Text} (fs : Files) (h : ∀ p a b c e, name ≠ p ++ '_' :: a :: b :: c :: '.' :: e) : readNamed fs name = .error .valueError := by
  have hf : ∀ (t p : Text) (s : Bool), name = p ++ t → findPart s t = none := by
    intro t
    induction t with
    | nil => intros; rfl
    | cons c t ih =>
      intro p s hp
      unfold findPart
      rw [ih (p ++ [c]) true (by rw [hp]; simp)]
      have : partAt (c :: t) = none := by
        unfold partAt
        split
        · rename_i a b c' rest heq
          rw [heq] at hp
          exact absurd hp (h p a b c' rest)
        · rfl
      rw [this]
      cases s <;> simp
  unfold readNamed parts checkName
  rw [hf name [] false rfl]
  rfl

/-- C167, partial: the files of a recording that is written are those that are read. Missing: a file of an older recording with the next number (`C167_fails_stale`). -/
theorem C167_parts_partial {pre stem e name : Text} (hn : Named pre stem) (he : IsTvips e) (hg : Given (pre ++ stem) e name) {files : List (List UInt8)} (hne : files ≠ []) {fs : Files}
    (hs : getKw (part (pre ++ stem) e files.length) fs = none) : parts (save name files fs) (part (pre ++ stem) e 0) = .ok files := by
  obtain ⟨h1, h2⟩ := C167_written hn he hg files fs
  cases files with
  | nil => exact absurd rfl hne
  | cons f rest =>
    have hne : pre ++ stem ≠ [] := by
      intro h
      obtain ⟨c, hc, _⟩ := hn.dots
      rw [(List.append_eq_nil_iff.1 h).2] at hc
      cases hc
    have hp0 : part (pre ++ stem) e 0 = pre ++ stem ++ '_' :: '0' :: '0' :: '0' :: '.' :: e := by
      unfold part
      rw [show three 0 = ['0', '0', '0'] by decide]
      simp
    have hc : checkName (part (pre ++ stem) e 0) = .ok () := by
      rw [hp0, check_name hne hn.line rfl rfl rfl he]
      rfl
    have h0 := h1 0 (by simp)
    rw [List.getElem?_cons_zero] at h0
    have hlast : getKw (part (pre ++ stem) e (f :: rest).length) (save name (f :: rest) fs) = none := by
      rw [h2 _ (fun k hk hq => by have := part_inj hq; omega)]
      exact hs
    have hbound : (f :: rest).length ≤ (save name (f :: rest) fs).length := by
      refine parts_bound (base := pre ++ stem) (e := e) fun k hk => ?_
      rw [h1 k hk, List.getElem?_eq_getElem hk]
      rfl
    have hb : (part (pre ++ stem) e 0).take ((part (pre ++ stem) e 0).length - 9) = pre ++ stem ++ ['_'] := by
      rw [hp0]
      have : (pre ++ stem ++ '_' :: '0' :: '0' :: '0' :: '.' :: e).length - 9 = (pre ++ stem ++ ['_']).length := by
        have := tvips_length he
        simp
        omega
      rw [this, show pre ++ stem ++ '_' :: '0' :: '0' :: '0' :: '.' :: e = (pre ++ stem ++ ['_']) ++ '0' :: '0' :: '0' :: '.' :: e by simp, List.take_left]
    have hx : (Edax.splitExt (part (pre ++ stem) e 0)).2 = '.' :: e := by
      rw [hp0, split_first hn he]
    unfold parts
    rw [hc]
    show (match getKw (part (pre ++ stem) e 0) (save name (f :: rest) fs) with
      | none => Except.error PyErr.ioError
      | some f => .ok (f :: otherParts _ _ _ _ 1)) = _
    rw [h0]
    dsimp only
    rw [hx, other_parts hb rest 1 _ (by simp only [List.length_cons] at hbound; omega) (fun k hk => by
      have := h1 (k + 1) (by simpa using hk)
      rw [List.getElem?_cons_succ] at this
      rw [← this]
      congr 2
      omega) (by rw [← hlast]; congr 2; simp; omega)]

/-- C167: the frames of a recording come back when it is read under the name of its first file. -/
theorem C167_frames_partial {pre stem e name : Text} (hn : Named pre stem) (he : IsTvips e) (hg : Given (pre ++ stem) e name) {h : Header} {fh : Nat → List UInt8} (limit : Option Nat)
    {recSize : Nat} {frames : List (List UInt8)} (hr : Recording h fh recSize frames) (hne : frames ≠ []) :
    ∃ files, writeFiles h fh limit recSize frames = .ok files ∧ ∀ fs, getKw (part (pre ++ stem) e files.length) fs = none →
      readNamed (save name files fs) (part (pre ++ stem) e 0) = .ok frames := by
  obtain ⟨files, h1, h2⟩ := Verif.Props.Tvips.C29_frames_partial limit hr hne
  refine ⟨files, h1, fun fs hs => ?_⟩
  have hf : files ≠ [] := by
    rintro rfl
    cases h2
  unfold readNamed
  rw [C167_parts_partial hn he hg hf hs]
  exact h2

/-! ### Examples -/

/-- The hypotheses on names hold. -/
example : Named "data/".toList "scan.1".toList ∧ IsTvips "TVIPS".toList ∧ Given ("data/".toList ++ "scan.1".toList) "TVIPS".toList "data/scan.1_000.TVIPS".toList ∧
    part ("data/".toList ++ "scan.1".toList) "TVIPS".toList 12 = "data/scan.1_012.TVIPS".toList :=
  ⟨⟨.inr (.inr ⟨"data".toList, rfl, by decide, by decide⟩), by decide, ⟨'s', by decide, by decide⟩, by decide⟩, by unfold IsTvips; decide +kernel, .inr rfl, by decide +kernel⟩

/-- A recording in two files comes back. -/
example : ((writeFiles sampleHeader sampleFh (some 318) 62 sampleFrames).map fun files => (files.length, (save "scan.tvips".toList files []).map Prod.fst)) =
    .ok (2, ["scan_000.tvips".toList, "scan_001.tvips".toList]) ∧
    ((writeFiles sampleHeader sampleFh (some 318) 62 sampleFrames) >>= fun files => readNamed (save "scan.tvips".toList files []) "scan_000.tvips".toList) = .ok sampleFrames := by
  decide +kernel

/-- C167 fails: when a recording in one file replaces one in two files, the second file of the old one stays, and its frames are read as if they belonged to the new one. -/
theorem C167_fails_stale : ∃ old new : List (List UInt8), writeFiles sampleHeader sampleFh (some 318) 62 sampleFrames = .ok old ∧
    writeFiles sampleHeader sampleFh none 62 [[11, 12], [13, 14]] = .ok new ∧
    readNamed (save "scan.tvips".toList new (save "scan.tvips".toList old [])) "scan_000.tvips".toList = .ok [[11, 12], [13, 14], [3, 4], [5, 6], [7, 8], [9, 10]] :=
  ⟨_, _, rfl, rfl, by decide +kernel⟩

/-- C167 fails: a file that is called like its number only is written, but not accepted for reading. -/
theorem C167_fails_bare : ∃ files, writeFiles sampleHeader sampleFh none 62 sampleFrames = .ok files ∧ (save "_000.tvips".toList files []).map Prod.fst = ["_000.tvips".toList] ∧
    readNamed (save "_000.tvips".toList files []) "_000.tvips".toList = .error .valueError :=
  ⟨_, rfl, by decide +kernel, by decide +kernel⟩

end Verif.Props.TvipsNames
