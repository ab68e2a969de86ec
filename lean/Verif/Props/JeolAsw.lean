import Verif.Spec.JeolAsw
import Verif.Lemmas.Edax
import Verif.Props.JeolTree
/-! C128: JEOL archives and images. -/
namespace Verif.Props.JeolAsw
open Verif Verif.Jeol Verif.JeolTree

/-! ### Entries -/

theorem okBind {α β : Type} (a : α) (f : α → Py β) : ((Except.ok a : Py α) >>= f) = f a := rfl

theorem item_has {d : Items} {k : String} {n : Node} (h : Has d k n) : item k.toList d = .ok n := by
  unfold item
  rw [getKw_mem h.1 h.2]

theorem section_ok {d es : Items} {k : String} (h : Section d k es) : section? k.toList d = .ok es := by
  unfold section?
  rcases h with h | ⟨h, rfl⟩
  · rw [getKw_mem h.1 h.2]
    rfl
  · rw [getKw_none h]

theorem appendAll_ok {α β γ : Type} {f : β → Py (List α)} {g : γ → List α} {R : β → γ → Prop} :
    ∀ {bs : List β} {cs : List γ}, List.Forall₂ R bs cs → (∀ b c, c ∈ cs → R b c → f b = .ok (g c)) →
      appendAll f bs = .ok (cs.flatMap g)
  | _, _, .nil, _ => rfl
  | _, _, .cons h t, hf => by
    unfold appendAll
    rw [hf _ _ (List.mem_cons_self ..) h]
    simp only [bind, Except.bind]
    rw [appendAll_ok t fun b c hc => hf b c (List.mem_cons_of_mem _ hc)]
    rfl

theorem flatten_flatMap {α β : Type} (g : α → List β) : ∀ l : List (List α), l.flatten.flatMap g = l.flatMap fun x => x.flatMap g
  | [] => rfl
  | x :: l => by rw [List.flatten_cons, List.flatMap_append, flatten_flatMap g l, List.flatMap_cons]

/-! ### Paths -/

theorem joinPath_names {a p : Text} (ha : a ≠ []) (hl : a.getLast? ≠ some '/') (hp : '/' ∉ p) : Edax.joinPath a p = a ++ '/' :: p := by
  unfold Edax.joinPath
  rw [if_neg, if_neg]
  · rintro (h | h)
    · exact ha h
    · exact hl h
  · intro h
    exact hp (List.mem_of_mem_head? h)

theorem foldl_joinPath : ∀ (ps : List Text) (a : Text), a ≠ [] → a.getLast? ≠ some '/' → (∀ p ∈ ps, p ≠ [] ∧ '/' ∉ p) →
    ps.foldl Edax.joinPath a = joinedBy '/' (a :: ps)
  | [], a, _, _, _ => rfl
  | p :: ps, a, ha, hl, h => by
    have hp := h p (List.mem_cons_self ..)
    rw [List.foldl_cons, joinPath_names ha hl hp.2, foldl_joinPath ps _ (by simp) _ fun q hq => h q (List.mem_cons_of_mem _ hq)]
    · cases ps <;> simp [joinedBy]
    · intro e
      have : (a ++ '/' :: p).getLast? = p.getLast? := by
        rw [show a ++ '/' :: p = (a ++ ['/']) ++ p by simp, List.getLast?_append]
        cases hg : p.getLast? with
        | none => exact absurd (List.getLast?_eq_none_iff.1 hg) hp.1
        | some c => rfl
      rw [this] at e
      exact hp.2 (List.mem_of_mem_getLast? e)

theorem splitChar_joinedBy : ∀ (ps : List Text), ps ≠ [] → (∀ p ∈ ps, '\\' ∉ p) → splitChar '\\' (joinedBy '\\' ps) = ps
  | [p], _, h => splitChar_none (h p (List.mem_cons_self ..))
  | p :: q :: ps, _, h => by
    rw [joinedBy, splitChar_append (h p (List.mem_cons_self ..)),
      splitChar_joinedBy (q :: ps) (by simp) fun x hx => h x (List.mem_cons_of_mem _ hx)]

theorem joinedBy_head {p : Text} {ps : List Text} (hp : p ≠ [] ∧ '/' ∉ p) : (joinedBy '/' (p :: ps)).head? ≠ some '/' := by
  intro e
  cases p with
  | nil => exact hp.1 rfl
  | cons c t =>
    have : (joinedBy '/' ((c :: t) :: ps)).head? = some c := by cases ps <;> rfl
    rw [this] at e
    cases e
    exact hp.2 (List.mem_cons_self ..)

/-- The path of a file of an archive. -/
theorem viewPath_ok {pre name : Text} {ps : List Text} (hp : Edax.IsFolder pre) (hn : '/' ∉ name) (h : GoodParts ps) :
    viewPath (Edax.splitPath (pre ++ name)).1 (joinedBy '\\' ps) = pre ++ joinedBy '/' ps := by
  unfold viewPath
  rw [splitChar_joinedBy ps h.1 fun p hp => (h.2 p hp).2.2]
  cases ps with
  | nil => exact absurd rfl h.1
  | cons p ps =>
    have h0 := h.2 p (List.mem_cons_self ..)
    dsimp only
    rw [foldl_joinPath ps p h0.1 (fun e => h0.2.1 (List.mem_of_mem_getLast? e))
      fun q hq => ⟨(h.2 q (List.mem_cons_of_mem _ hq)).1, (h.2 q (List.mem_cons_of_mem _ hq)).2.1⟩]
    exact (Edax.splitPath_of hp hn).2 _ (joinedBy_head ⟨h0.1, h0.2.1⟩)

/-! ### The choice of the reader -/

theorem extension_ok {path : Text} {ext : String} (h : HasExt path ext) : extension path = ext.toList := by
  obtain ⟨pre, stem, e, rfl, hp, hs, hd, he, he', hl⟩ := h
  unfold extension
  rw [Edax.splitExt_of hp hs hd he he']
  exact hl

theorem kindOf_ok {k : Kind} {ext : String} (h : ext ∈ extensions k) : kindOf ext.toList = some k := by
  cases k <;> simp only [extensions, List.mem_cons, List.not_mem_nil, or_false] at h
  · rcases h with rfl | rfl <;> rfl
  · subst h; rfl
  · subst h; rfl
  · subst h; rfl

/-- C128: a file is read by the reader of its extension, in small or capital letters. -/
theorem C128_reader {α : Type} (dec : List UInt8 → Option Text) (disk : Text → Option (List UInt8))
    (other : Kind → Text → List UInt8 → Py (List α)) (fuel : Nat) (path : Text) (k : Kind) (ext : String) (f : List UInt8) (l : List α)
    (hk : k ≠ .asw) (he : ext ∈ extensions k) (hp : HasExt path ext) (hd : disk path = some f) (ho : other k path f = .ok l) :
    fileReader dec disk other (fuel + 1) path = .ok (l.map fun a => ⟨a, none⟩) := by
  unfold fileReader
  rw [extension_ok hp, kindOf_ok he]
  dsimp only
  rw [hd]
  dsimp only
  rw [if_neg hk, ho]
  rfl

/-- C128: a file with another extension is skipped. -/
theorem C128_skipped {α : Type} (dec : List UInt8 → Option Text) (disk : Text → Option (List UInt8))
    (other : Kind → Text → List UInt8 → Py (List α)) (fuel : Nat) (path : Text) (ext : String)
    (he : ∀ k, ext ∉ extensions k) (hp : HasExt path ext) : fileReader dec disk other (fuel + 1) path = .ok [] := by
  unfold fileReader
  have h1 := he .img
  have h2 := he .pts
  have h3 := he .eds
  have h4 := he .asw
  simp only [extensions, List.mem_cons, List.not_mem_nil, or_false, not_or] at h1 h2 h3 h4
  have hi : ∀ {s t : String}, s ≠ t → s.toList ≠ t.toList := fun h e => h (String.ext e)
  rw [extension_ok hp]
  unfold kindOf
  rw [if_neg (by rintro (h | h); exacts [hi h1.1 h, hi h1.2 h]), if_neg (hi h2), if_neg (hi h3), if_neg (hi h4)]

/-! ### Archives -/

theorem u32_first {n : Nat} (hn : n < 2 ^ 32) (rest : List UInt8) : u32s 0 1 (leBytes 4 n ++ rest) = [n] := by
  have := itemsOf_bytes (w := 4) [n] rest (by simpa using hn)
  simpa [u32s] using this

theorem oneFile_ok {α : Type} {reader : Text → Py (List (Sig α))} {sigs : List Text → List (Sig α)} {pre name : Text} {tree : Items}
    {e : Text × Node} {v : Items × List Text} (hp : Edax.IsFolder pre) (hn : '/' ∉ name) (hg : GoodParts v.2) (h : FileEntry e v)
    (hr : reader (pre ++ joinedBy '/' v.2) = .ok (sigs v.2)) :
    oneFile reader (Edax.splitPath (pre ++ name)).1 tree e = .ok ((sigs v.2).map fun s => ⟨s.content, some (tree, v.1)⟩) := by
  unfold oneFile
  rw [h.1]
  simp only [asDict, bind, Except.bind]
  rw [item_has h.2]
  simp only [asText]
  rw [viewPath_ok hp hn hg, hr]
  rfl

/-- C128: the signals of an archive are those of its files, in the order of samples, views and files; each one gets the tree of the archive
and the entry of its file. -/
theorem C128_archive {α : Type} {dec : List UInt8 → Option Text} (hdec : Decodes dec) (disk : Text → Option (List UInt8))
    (other : Kind → Text → List UInt8 → Py (List α)) (fuel : Nat) (pre name : Text) (f : List UInt8) (ts : List Tree)
    (files : List (Items × List Text)) (sigs : List Text → List (Sig α))
    (hp : Edax.IsFolder pre) (hn : '/' ∉ name) (he : HasExt (pre ++ name) "asw") (hd : disk (pre ++ name) = some f)
    (hf : IsArchiveFile f ts) (hg : AllGood ts) (hk : (keys ts).Nodup) (ha : Archive (meanings ts) files)
    (hparts : ∀ v ∈ files, GoodParts v.2)
    (hr : ∀ v ∈ files, fileReader dec disk other fuel (pre ++ joinedBy '/' v.2) = .ok (sigs v.2)) :
    fileReader dec disk other (fuel + 1) (pre ++ name) =
      .ok (files.flatMap fun v => (sigs v.2).map fun s => ⟨s.content, some (meanings ts, v.1)⟩) := by
  unfold fileReader
  rw [extension_ok he, kindOf_ok (k := .asw) (by decide)]
  dsimp only
  rw [hd]
  dsimp only
  rw [if_pos rfl]
  obtain ⟨eight, m, rest, h8, hm, rfl⟩ := hf
  unfold readAsw
  rw [List.append_assoc, u32_first (by decide)]
  dsimp only
  rw [if_neg (by decide), ← List.append_assoc, List.drop_left' (by simp [h8]), JeolTree.C46_tree_partial hdec ts hg hk m hm rest]
  simp only [bind, Except.bind]
  obtain ⟨es, vsss, hs, hall, rfl⟩ := ha
  rw [section_ok hs]
  dsimp only
  let G : Items × List Text → List (Sig α) := fun v => (sigs v.2).map fun s => ⟨s.content, some (meanings ts, v.1)⟩
  have := appendAll_ok (g := fun vss : List (List (Items × List Text)) => vss.flatten.flatMap G) (f := oneSample
    (fileReader dec disk other fuel) (Edax.splitPath (pre ++ name)).1 (meanings ts)) hall (by
      rintro e vss hvss ⟨d, es', hd', hs', hall'⟩
      unfold oneSample
      rw [hd']
      simp only [asDict, bind, Except.bind]
      rw [section_ok hs']
      dsimp only
      rw [appendAll_ok (g := fun vs : List (Items × List Text) => vs.flatMap G) hall']
      · rw [flatten_flatMap]
      · rintro e vs hvs ⟨d, es'', hd'', hs'', hall''⟩
        unfold oneView
        rw [hd'']
        simp only [asDict, bind, Except.bind]
        rw [section_ok hs'']
        dsimp only
        refine appendAll_ok hall'' ?_
        intro e v hv hfe
        have hmem : v ∈ vsss.flatten.flatten :=
          List.mem_flatten.2 ⟨vs, List.mem_flatten.2 ⟨vss, hvss, hvs⟩, hv⟩
        exact oneFile_ok hp hn (hparts v hmem) hfe (hr v hmem))
  rw [this]
  change _ = Except.ok (vsss.flatten.flatten.flatMap G)
  rw [flatten_flatMap, flatten_flatMap]
  congr 2
  funext vss
  exact flatten_flatMap G vss

/-- C128: a file that does not begin with four zero bytes is no archive. -/
theorem C128_not_archive {α : Type} (dec : List UInt8 → Option Text) (disk : Text → Option (List UInt8))
    (other : Kind → Text → List UInt8 → Py (List α)) (fuel : Nat) (path : Text) (n : Nat) (rest : List UInt8) (hn : n < 2 ^ 32) (h0 : n ≠ 0)
    (he : HasExt path "asw") (hd : disk path = some (leBytes 4 n ++ rest)) :
    fileReader dec disk other (fuel + 1) path = .error .valueError := by
  unfold fileReader
  rw [extension_ok he, kindOf_ok (k := .asw) (by decide)]
  dsimp only
  rw [hd]
  dsimp only
  rw [if_pos rfl]
  unfold readAsw
  rw [u32_first hn]
  dsimp only
  rw [if_pos h0]

/-! ### Images -/

theorem numOf_ok {ty n : Nat} {r : Rat} (h : Number ty n r) : numOf ty n = r := by
  unfold numOf
  rcases h with ⟨h, rfl⟩ | ⟨h, i, rfl, h1, h2, h3⟩ | ⟨h, rfl⟩ | ⟨h, rfl⟩
  · rw [if_neg, if_neg, if_neg]
    all_goals
      rintro (rfl | rfl) <;> revert h <;> decide
  · rw [if_pos (by simpa using h)]
    congr 1
    unfold toSigned
    split <;> omega
  · rw [if_neg, if_pos (by simpa using h)]
    rintro (rfl | rfl) <;> revert h <;> decide
  · rw [if_neg, if_neg, if_pos (by simpa using h)]
    all_goals
      rintro (rfl | rfl) <;> revert h <;> decide

theorem nums_ok {ty : Nat} {ns : List Nat} {rs : List Rat} (h : List.Forall₂ (Number ty) ns rs) : ns.map (numOf ty) = rs := by
  induction h with
  | nil => rfl
  | cons h _ ih => rw [List.map_cons, numOf_ok h, ih]

theorem asNum_ok {d : Items} {k : String} {r : Rat} (h : HasNum d k r) : (item k.toList d >>= asNum) = .ok r := by
  obtain ⟨ty, n, h1, h2⟩ := h
  rw [item_has h1]
  simp only [bind, Except.bind, asNum]
  rw [numOf_ok h2]

theorem asArray_ok {d : Items} {k : String} {rs : List Rat} (h : HasNums d k rs) : (item k.toList d >>= asArray) = .ok rs := by
  obtain ⟨ty, n, h1, h2⟩ := h
  rw [item_has h1]
  simp only [bind, Except.bind, asArray]
  rw [nums_ok h2]

theorem asPair_ok {d : Items} {k : String} {a b : Rat} (h : HasNums d k [a, b]) : (item k.toList d >>= asPair) = .ok (a, b) := by
  obtain ⟨ty, n, h1, h2⟩ := h
  rw [item_has h1]
  cases h2 with
  | cons h2 h3 =>
    cases h3 with
    | cons h3 h4 =>
      cases h4
      simp only [bind, Except.bind, asPair]
      rw [numOf_ok h2, numOf_ok h3]

/-- C128: an image. The data are the stored pixels, row by row; both directions have the field of view `ScanSize / Mag`, in µm; the other
metadata are those of the header. Missing: images of one pixel (a single value is not an array), and headers whose number of pixels is not
that of the size (see `C128_fails_short`). -/
theorem C128_image_partial {dec : List UInt8 → Option Text} (hdec : Decodes dec) (f : List UInt8) (ts : List Tree) (width height : Nat)
    (pixels : List Rat) (scan mag created hv : Rat) (title : Node) (hf : IsImageFile f ts) (hg : AllGood ts) (hk : (keys ts).Nodup)
    (hp : Picture (meanings ts) width height pixels scan mag created hv title) (hn : pixels.length = height * width)
    (hw : 0 < width) (hh : 0 < height) (hm : mag ≠ 0) :
    ∃ i, readImg dec f = .ok [i] ∧ i.shape = (height, width) ∧
      i.data = pixels ∧
      (∃ y x, i.axes = [y, x] ∧ y.name = ['y'] ∧ x.name = ['x'] ∧ y.size = height ∧ x.size = width ∧ y.offset = 0 ∧ x.offset = 0 ∧
        y.units = "µm".toList ∧ x.units = "µm".toList ∧ y.navigate = false ∧ x.navigate = false ∧
        y.scale * height * mag = scan * 1000 ∧ x.scale * width * mag = scan * 1000) ∧
      i.mode = (if hv ≤ 30 then "SEM".toList else "TEM".toList) ∧ i.energy = hv ∧ i.magnification = mag ∧ i.created = created ∧
      i.title = title ∧ i.header = meanings ts := by
  obtain ⟨format, pad, a, b, pos, between, m, rest, hfa, hfl, ha, hb, hpos, hbet, hm1, rfl⟩ := hf
  obtain ⟨image, instr, h1, h2, h3, h4, h5, h6, h7, h8, h9⟩ := hp.parts
  refine ⟨⟨(height, width), pixels, [imgAxis 'y' height (scan / mag * 1000), imgAxis 'x' width (scan / mag * 1000)], imgMode hv, hv, mag,
    created, title, meanings ts⟩, ?_, rfl, rfl, ⟨_, _, rfl, rfl, rfl, rfl, rfl, rfl, rfl, rfl, rfl, rfl, rfl, ?_, ?_⟩, rfl, rfl, rfl, rfl,
    rfl, rfl⟩
  · unfold readImg
    simp only [List.append_assoc]
    rw [u32_first (by decide)]
    dsimp only
    rw [if_neg (by decide), List.drop_left' (by simp)]
    rw [← List.append_assoc (ascii format) (List.replicate pad 0), List.take_left' (by simp [ascii, hfl]),
      rstripNul_pad pad fun b hb => (ascii_last (isAscii_last hfa) hb).1, hdec format fun c hc => (hfa c hc).2]
    dsimp only
    have hu : u32s 36 3 (leBytes 4 52 ++ ((ascii format ++ List.replicate pad 0) ++
        (leBytes 4 a ++ (leBytes 4 b ++ (leBytes 4 pos ++ (between ++ (encAll ts ++ m :: rest))))))) = [a, b, pos] := by
      unfold u32s
      rw [← List.append_assoc (leBytes 4 52), List.drop_left' (by simp [ascii]; omega)]
      have := itemsOf_bytes (w := 4) [a, b, pos] (between ++ (encAll ts ++ m :: rest)) (by
        intro n hn
        simp only [List.mem_cons, List.not_mem_nil, or_false] at hn
        rcases hn with rfl | rfl | rfl <;> assumption)
      simpa [List.flatMap_cons, List.append_assoc] using this
    rw [hu]
    dsimp only
    have hdrop : (leBytes 4 52 ++ ((ascii format ++ List.replicate pad 0) ++
        (leBytes 4 a ++ (leBytes 4 b ++ (leBytes 4 pos ++ (between ++ (encAll ts ++ m :: rest))))))).drop (pos + 12) =
        encAll ts ++ m :: rest := by
      simp only [← List.append_assoc]
      rw [List.append_assoc]
      exact List.drop_left' (by simp [ascii]; omega)
    rw [hdrop, JeolTree.C46_tree_partial hdec ts hg hk m hm1 rest]
    simp only [bind, Except.bind]
    have hi : imgOf (meanings ts) = .ok ⟨(height, width), pixels, [imgAxis 'y' height (scan / mag * 1000), imgAxis 'x' width (scan / mag * 1000)], imgMode hv, hv, mag,
        created, title, meanings ts⟩ := by
      unfold imgOf
      rw [item_has h1]
      simp only [okBind, asDict]
      rw [asPair_ok h3]
      simp only [okBind]
      rw [asArray_ok h4]
      simp only [okBind]
      rw [if_neg (by simp), if_neg (by simp)]
      rw [item_has h2]
      simp only [okBind, asDict]
      rw [asNum_ok h7]
      simp only [okBind]
      rw [asNum_ok h8]
      simp only [okBind]
      rw [asNum_ok h5]
      simp only [okBind]
      rw [asNum_ok h9]
      simp only [okBind]
      rw [item_has h6]
      simp only [okBind, Rat.num_natCast, Int.toNat_natCast]
      congr 2
      unfold resized
      rw [← hn]
      simp
    rw [hi]
  · have : (height : Rat) ≠ 0 := by exact_mod_cast hh.ne'
    simp only [imgAxis]
    field_simp
  · have : (width : Rat) ≠ 0 := by exact_mod_cast hw.ne'
    simp only [imgAxis]
    field_simp

/-- C128: a file that does not begin with the number 52 is no image and is skipped. -/
theorem C128_not_image (dec : List UInt8 → Option Text) (n : Nat) (rest : List UInt8) (hn : n < 2 ^ 32) (h : n ≠ 52) :
    readImg dec (leBytes 4 n ++ rest) = .ok [] := by
  unfold readImg
  rw [u32_first hn]
  dsimp only
  rw [if_pos h]

/-! ### An archive and an image -/

/-- A leaf with a text. -/
def leafText (name t : String) : Tree := JeolTree.entry name.toList (.texts 12 [t.toList] 1) []

/-- A leaf with numbers. -/
def leafNums (name : String) (ty : Nat) (ns : List Nat) : Tree := JeolTree.entry name.toList (.nums ty ns) []

def group (name : String) (ts : List Tree) : Tree := JeolTree.entry name.toList .group ts

/-- Two samples; the first one has a view with two files and a view without any. -/
def archive : List Tree :=
  [group "SampleInfo"
    [group "0" [group "ViewInfo" [
        group "0" [group "ViewData" [group "0" [leafText "Filename" "Sample\\a.img"], group "1" [leafText "Filename" "Sample\\b.txt"]]],
        group "1" []]],
     group "1" [group "ViewInfo" [group "0" [group "ViewData" [group "0" [leafText "Filename" "c.eds"]]]]]]]

def archiveBytes : List UInt8 := leBytes 4 0 ++ List.replicate 8 0 ++ (encAll archive ++ 0 :: [])

def disk : Text → Option (List UInt8) := fun p =>
  if p = "/d/x.asw".toList then some archiveBytes
  else if p = "/d/Sample/a.img".toList then some [1] else if p = "/d/c.eds".toList then some [2, 3] else none

/-- Readers that return the number of bytes. -/
def sizes : Kind → Text → List UInt8 → Py (List Nat) := fun _ _ f => .ok [f.length]

def view (name : String) : Items := [("Filename".toList, .val (.text name.toList))]

def archiveFiles : List (Items × List Text) :=
  [(view "Sample\\a.img", ["Sample".toList, "a.img".toList]), (view "Sample\\b.txt", ["Sample".toList, "b.txt".toList]),
   (view "c.eds", ["c.eds".toList])]

theorem has_only {k : String} {n : Node} : Has [(k.toList, n)] k n := ⟨by simp, by simp⟩

theorem group_good {name : String} {ts : List Tree} (h1 : (name.toList.all fun c => decide (0 < c.toNat ∧ c.toNat < 128)) = true)
    (h2 : name.toList ≠ []) (h3 : name.toList ≠ "Limits".toList) (h4 : name.toList.length < 100) (hg : AllGood ts) (hk : (keys ts).Nodup) :
    (group name ts).Good := by
  unfold group JeolTree.entry
  unfold Tree.Good
  refine ⟨JeolTree.entry_name h2 (JeolTree.isAscii_of h1), trivial, ?_, (by decide), JeolTree.place_group h3, ?_, hg⟩
  · simp only [ascii, List.length_map]
    omega
  · simpa [Content.own, Content.value] using hk

theorem text_good {name t : String} (h1 : (name.toList.all fun c => decide (0 < c.toNat ∧ c.toNat < 128)) = true)
    (h2 : name.toList ≠ []) (h3 : ¬ Paged name.toList) (h4 : name.toList.length < 100)
    (h5 : (t.toList.all fun c => decide (0 < c.toNat ∧ c.toNat < 128)) = true) (h6 : t.toList ≠ []) (h7 : t.toList.length < 100) :
    (leafText name t).Good := by
  unfold leafText JeolTree.entry
  unfold Tree.Good
  refine ⟨JeolTree.entry_name h2 (JeolTree.isAscii_of h1), ⟨by decide, ?_, .inr ⟨t.toList, rfl, h6⟩⟩, ?_, ?_, JeolTree.place_leaf h3, ?_,
    trivial⟩
  · intro x hx
    rw [List.mem_singleton.1 hx]
    exact JeolTree.isAscii_of h5
  · simp only [ascii, List.length_map]
    omega
  · simp only [Content.bytes, joinNul, ascii, List.length_append, List.length_map, List.length_replicate]
    omega
  · unfold Content.own
    simp only [Content.ty]
    split
    · exact List.nodup_nil
    · split
      · exact List.nodup_singleton _
      · exact List.nodup_nil

theorem nums_good {name : String} {ty w : Nat} {ns : List Nat} (h1 : (name.toList.all fun c => decide (0 < c.toNat ∧ c.toNat < 128)) = true)
    (h2 : name.toList ≠ []) (h3 : ¬ Paged name.toList) (h4 : name.toList.length < 100) (h5 : (ty, w) ∈ numTypes) (h6 : ∀ n ∈ ns, n < 256 ^ w)
    (h7 : (Content.nums ty ns).bytes.length < 100) : (leafNums name ty ns).Good := by
  unfold leafNums JeolTree.entry
  unfold Tree.Good
  refine ⟨JeolTree.entry_name h2 (JeolTree.isAscii_of h1), ⟨w, h5, h6⟩, ?_, ?_, JeolTree.place_leaf h3, ?_, trivial⟩
  · simp only [ascii, List.length_map]
    omega
  · omega
  · unfold Content.own
    split
    · exact List.nodup_nil
    · split
      · exact List.nodup_singleton _
      · split
        · exact List.nodup_singleton _
        · exact List.nodup_nil

theorem archive_good : AllGood archive ∧ (keys archive).Nodup := by
  refine ⟨?_, by decide +kernel⟩
  have tg : ∀ t : String, (t.toList.all fun c => decide (0 < c.toNat ∧ c.toNat < 128)) = true → t.toList ≠ [] → t.toList.length < 100 →
      AllGood [leafText "Filename" t] := fun t a b c =>
    ⟨text_good (by decide) (by decide) (by decide +kernel) (by decide) a b c, trivial⟩
  refine ⟨group_good (by decide) (by decide) (by decide) (by decide) ⟨?_, ?_, trivial⟩ (by decide +kernel), trivial⟩
  · refine group_good (by decide) (by decide) (by decide) (by decide) ⟨?_, trivial⟩ (by decide +kernel)
    refine group_good (by decide) (by decide) (by decide) (by decide) ⟨?_, ?_, trivial⟩ (by decide +kernel)
    · refine group_good (by decide) (by decide) (by decide) (by decide) ⟨?_, trivial⟩ (by decide +kernel)
      refine group_good (by decide) (by decide) (by decide) (by decide) ⟨?_, ?_, trivial⟩ (by decide +kernel)
      · exact group_good (by decide) (by decide) (by decide) (by decide) (tg _ (by decide) (by decide) (by decide)) (by decide +kernel)
      · exact group_good (by decide) (by decide) (by decide) (by decide) (tg _ (by decide) (by decide) (by decide)) (by decide +kernel)
    · exact group_good (by decide) (by decide) (by decide) (by decide) trivial (by decide +kernel)
  · refine group_good (by decide) (by decide) (by decide) (by decide) ⟨?_, trivial⟩ (by decide +kernel)
    refine group_good (by decide) (by decide) (by decide) (by decide) ⟨?_, trivial⟩ (by decide +kernel)
    refine group_good (by decide) (by decide) (by decide) (by decide) ⟨?_, trivial⟩ (by decide +kernel)
    refine group_good (by decide) (by decide) (by decide) (by decide) ⟨?_, trivial⟩ (by decide +kernel)
    exact group_good (by decide) (by decide) (by decide) (by decide) (tg _ (by decide) (by decide) (by decide)) (by decide +kernel)

theorem fileEntry_of (k : Text) {name : String} {ps : List Text} (h : joinedBy '\\' ps = name.toList) :
    FileEntry (k, .dict (view name)) (view name, ps) := by
  refine ⟨rfl, ?_⟩
  rw [h]
  exact has_only

def file (k name : String) : Text × Node := (k.toList, .dict (view name))

def views0 : Items := [("0".toList, .dict [("ViewData".toList, .dict [file "0" "Sample\\a.img", file "1" "Sample\\b.txt"])]),
  ("1".toList, .dict [])]

def views1 : Items := [("0".toList, .dict [("ViewData".toList, .dict [file "0" "c.eds"])])]

def samples : Items := [("0".toList, .dict [("ViewInfo".toList, .dict views0)]), ("1".toList, .dict [("ViewInfo".toList, .dict views1)])]

theorem archive_meaning : meanings archive = [("SampleInfo".toList, .dict samples)] := rfl

theorem archive_files : Archive (meanings archive) archiveFiles := by
  rw [archive_meaning]
  refine ⟨samples, [[[(view "Sample\\a.img", ["Sample".toList, "a.img".toList]), (view "Sample\\b.txt", ["Sample".toList, "b.txt".toList])], []],
    [[(view "c.eds", ["c.eds".toList])]]], .inl has_only, .cons ⟨_, views0, rfl, .inl has_only, .cons ⟨_, _, rfl, .inl has_only,
      .cons (fileEntry_of _ rfl) (.cons (fileEntry_of _ rfl) .nil)⟩ (.cons ⟨[], [], rfl, .inr ⟨by simp, rfl⟩, .nil⟩ .nil)⟩
    (.cons ⟨_, views1, rfl, .inl has_only, .cons ⟨_, _, rfl, .inl has_only, .cons (fileEntry_of _ rfl) .nil⟩ .nil⟩ .nil), rfl⟩

theorem folder_d : Edax.IsFolder "/d/".toList := .inr (.inr ⟨"/d".toList, rfl, by decide, by decide⟩)

/-- What is in the files; `b.txt` is not read. -/
def found : List Text → List (Sig Nat) := fun ps =>
  if ps = ["Sample".toList, "a.img".toList] then [⟨1, none⟩] else if ps = ["c.eds".toList] then [⟨2, none⟩] else []

theorem archive_read : ∀ v ∈ archiveFiles, fileReader JeolTree.asciiDec disk sizes 1 ("/d/".toList ++ joinedBy '/' v.2) = .ok (found v.2) := by
  intro v hv
  simp only [archiveFiles, List.mem_cons, List.not_mem_nil, or_false] at hv
  have hf : Edax.IsFolder "/d/Sample/".toList := .inr (.inr ⟨"/d/Sample".toList, rfl, by decide, by decide⟩)
  rcases hv with rfl | rfl | rfl
  · exact C128_reader _ disk sizes 0 _ .img "img" [1] [1] (by decide) (by decide)
      ⟨"/d/Sample/".toList, "a".toList, "img".toList, rfl, hf, by decide, by decide, by decide, by decide, rfl⟩ (by decide +kernel) rfl
  · exact C128_skipped _ disk sizes 0 _ "txt" (by intro k; cases k <;> decide)
      ⟨"/d/Sample/".toList, "b".toList, "txt".toList, rfl, hf, by decide, by decide, by decide, by decide, rfl⟩
  · exact C128_reader _ disk sizes 0 _ .eds "eds" [2, 3] [2] (by decide) (by decide)
      ⟨"/d/".toList, "c".toList, "eds".toList, rfl, folder_d, by decide, by decide, by decide, by decide, rfl⟩ (by decide +kernel) rfl

/-- `C128_archive` applied to the archive. -/
example : fileReader JeolTree.asciiDec disk sizes 2 "/d/x.asw".toList =
    .ok [⟨1, some (meanings archive, view "Sample\\a.img")⟩, ⟨2, some (meanings archive, view "c.eds")⟩] :=
  C128_archive JeolTree.asciiDec_decodes disk sizes 1 "/d/".toList "x.asw".toList archiveBytes archive archiveFiles found folder_d
    (by decide) ⟨"/d/".toList, "x".toList, "asw".toList, rfl, folder_d, by decide, by decide, by decide, by decide, rfl⟩ (by decide +kernel)
    ⟨List.replicate 8 0, 0, [], by decide, by decide, rfl⟩ archive_good.1 archive_good.2 archive_files
    (by
      intro v hv
      simp only [archiveFiles, List.mem_cons, List.not_mem_nil, or_false] at hv
      rcases hv with rfl | rfl | rfl <;> exact ⟨by decide, by decide⟩)
    archive_read

/-- An image of 2 x 3 pixels; `ns` are its values. -/
def picture (ns : List Nat) : List Tree :=
  [group "Image" [leafNums "Size" 3 [3, 2], leafNums "Bits" 1 ns, leafNums "Created" 2 [44000], leafText "Title" "IMG"],
   group "Instrument" [leafNums "ScanSize" 2 [120], leafNums "Mag" 2 [1000], leafNums "AccV" 2 [15]]]

def pictureBytes (ns : List Nat) : List UInt8 :=
  leBytes 4 52 ++ (ascii "JED".toList ++ List.replicate 29 0) ++ (leBytes 4 0 ++ leBytes 4 0 ++ leBytes 4 36) ++ [] ++
    (encAll (picture ns) ++ 0 :: [])

theorem number_small {ty n : Nat} (h : ty ∈ [1, 2, 6, 7, 11, 14, 65552, 65553]) : Number ty n (n : Rat) := .inl ⟨h, rfl⟩

theorem picture_good : AllGood (picture [1, 2, 3, 4, 5, 6]) ∧ (keys (picture [1, 2, 3, 4, 5, 6])).Nodup := by
  refine ⟨⟨?_, ?_, trivial⟩, by decide +kernel⟩
  · refine group_good (by decide) (by decide) (by decide) (by decide) ⟨?_, ?_, ?_, ?_, trivial⟩ (by decide +kernel)
    · exact nums_good (w := 4) (by decide) (by decide) (by decide +kernel) (by decide) (by decide) (by decide) (by decide)
    · exact nums_good (w := 1) (by decide) (by decide) (by decide +kernel) (by decide) (by decide) (by decide) (by decide)
    · exact nums_good (w := 2) (by decide) (by decide) (by decide +kernel) (by decide) (by decide) (by decide) (by decide)
    · exact text_good (by decide) (by decide) (by decide +kernel) (by decide) (by decide) (by decide) (by decide)
  · refine group_good (by decide) (by decide) (by decide) (by decide) ⟨?_, ?_, ?_, trivial⟩ (by decide +kernel)
    · exact nums_good (w := 2) (by decide) (by decide) (by decide +kernel) (by decide) (by decide) (by decide) (by decide)
    · exact nums_good (w := 2) (by decide) (by decide) (by decide +kernel) (by decide) (by decide) (by decide) (by decide)
    · exact nums_good (w := 2) (by decide) (by decide) (by decide +kernel) (by decide) (by decide) (by decide) (by decide)

def imageItems : Items := [("Size".toList, .val (.nums 3 [3, 2])), ("Bits".toList, .val (.nums 1 [1, 2, 3, 4, 5, 6])),
  ("Created".toList, .val (.num 2 44000)), ("Title".toList, .val (.text "IMG".toList))]

def instrItems : Items := [("ScanSize".toList, .val (.num 2 120)), ("Mag".toList, .val (.num 2 1000)), ("AccV".toList, .val (.num 2 15))]

theorem picture_meaning : meanings (picture [1, 2, 3, 4, 5, 6]) = [("Image".toList, .dict imageItems), ("Instrument".toList, .dict instrItems)] := rfl

theorem picture_picture : Picture (meanings (picture [1, 2, 3, 4, 5, 6])) 3 2 [1, 2, 3, 4, 5, 6] 120 1000 44000 15 (.val (.text "IMG".toList)) := by
  rw [picture_meaning]
  have n1 : (imageItems.map Prod.fst).Nodup := by decide
  have n2 : (instrItems.map Prod.fst).Nodup := by decide
  refine ⟨imageItems, instrItems, ⟨by decide, by simp⟩, ⟨by decide, by simp⟩, ⟨3, [3, 2], ⟨n1, by simp [imageItems]⟩, ?_⟩,
    ⟨1, [1, 2, 3, 4, 5, 6], ⟨n1, by simp [imageItems]⟩, ?_⟩, ⟨2, 44000, ⟨n1, by simp [imageItems]⟩, number_small (by decide)⟩,
    ⟨n1, by simp [imageItems]⟩, ⟨2, 120, ⟨n2, by simp [instrItems]⟩, number_small (by decide)⟩,
    ⟨2, 1000, ⟨n2, by simp [instrItems]⟩, number_small (by decide)⟩, ⟨2, 15, ⟨n2, by simp [instrItems]⟩, number_small (by decide)⟩⟩
  · exact .cons (.inr (.inl ⟨by decide, 3, by norm_num, by decide, by decide, by decide⟩))
      (.cons (.inr (.inl ⟨by decide, 2, by norm_num, by decide, by decide, by decide⟩)) .nil)
  · exact .cons (number_small (by decide)) (.cons (number_small (by decide)) (.cons (number_small (by decide)) (.cons (number_small (by decide))
      (.cons (number_small (by decide)) (.cons (number_small (by decide)) .nil)))))

theorem picture_file : IsImageFile (pictureBytes [1, 2, 3, 4, 5, 6]) (picture [1, 2, 3, 4, 5, 6]) :=
  ⟨"JED".toList, 29, 0, 0, 36, [], 0, [], JeolTree.isAscii_of (by decide), by decide, by decide, by decide, by decide, by decide, by decide, rfl⟩

/-- `C128_image_partial` applied to the image. -/
example : ∃ i, readImg JeolTree.asciiDec (pictureBytes [1, 2, 3, 4, 5, 6]) = .ok [i] ∧ i.shape = (2, 3) ∧ i.data = [1, 2, 3, 4, 5, 6] ∧
    i.mode = "SEM".toList := by
  obtain ⟨i, h1, h2, h3, -, h4, -⟩ := C128_image_partial JeolTree.asciiDec_decodes _ _ 3 2 _ 120 1000 44000 15 _ picture_file picture_good.1
    picture_good.2 picture_picture rfl (by decide) (by decide) (by decide)
  exact ⟨i, h1, h2, h3, by rw [h4, if_pos (by norm_num)]⟩

/-- Shapes and data of images. -/
def shown (m : Py (List Img)) : Option (List ((Nat × Nat) × List Rat)) := m.toOption.map fun l => l.map fun i => (i.shape, i.data)

/-- C128 fails if pixels are missing: they are filled with zeros, without an error. -/
theorem C128_fails_short : shown (readImg JeolTree.asciiDec (pictureBytes [1, 2, 3, 4])) = some [((2, 3), [1, 2, 3, 4, 0, 0])] := by
  decide +kernel

/-- C128 fails if there are more values than pixels: the others are left out, without an error. -/
theorem C128_fails_long : shown (readImg JeolTree.asciiDec (pictureBytes [1, 2, 3, 4, 5, 6, 7])) = some [((2, 3), [1, 2, 3, 4, 5, 6])] := by
  decide +kernel

/-- C128 fails if a file of the archive is missing: `FileNotFoundError`; none of the others is returned. -/
theorem C128_fails_missing_file :
    (fileReader JeolTree.asciiDec (fun p => if p = "/d/c.eds".toList then none else disk p) sizes 2 "/d/x.asw".toList).toOption.isNone =
      true := by
  decide +kernel

end Verif.Props.JeolAsw
