import Verif.Model.Mrc
import Mathlib.Data.List.Perm.Subperm
import Mathlib.Data.List.Nodup
/-!
C35, C36, C54: Direct Electron files and MRC axes.
-/
namespace Verif.Props.Mrc
open Verif Verif.Mrc

/-! ### C35 -/

theorem numbered_inj {x : Text} {a b : Nat} (h : numbered x a = numbered x b) : a = b := by
  unfold numbered at h
  exact decChars_inj (List.cons.inj (List.append_cancel_left h)).2

theorem freshCount_search (seen : List (Text × Nat)) (x : Text) : ∀ (fuel c : Nat),
    numbered x (freshCount seen x fuel c) ∉ seen.map Prod.fst ∨
      ∀ i, i < fuel → numbered x (c + i) ∈ seen.map Prod.fst
  | 0, c => .inr (fun i hi => by omega)
  | fuel + 1, c => by
    unfold freshCount
    split
    · rename_i h
      rcases freshCount_search seen x fuel (c + 1) with h1 | h1
      · exact .inl h1
      · refine .inr (fun i hi => ?_)
        cases i with
        | zero => exact h
        | succ i =>
          have := h1 i (by omega)
          rwa [show c + 1 + i = c + (i + 1) by omega] at this
    · rename_i h
      exact .inl h

/-- The loop looking for a new name ends with one. -/
theorem freshCount_not_mem (seen : List (Text × Nat)) (x : Text) (c : Nat) :
    numbered x (freshCount seen x (seen.length + 1) c) ∉ seen.map Prod.fst := by
  rcases freshCount_search seen x (seen.length + 1) c with h | h
  · exact h
  · exfalso
    have hnd : ((List.range (seen.length + 1)).map fun i => numbered x (c + i)).Nodup := by
      refine List.Nodup.map (fun i j e => ?_) List.nodup_range
      have := numbered_inj e
      omega
    have hsub : ((List.range (seen.length + 1)).map fun i => numbered x (c + i)) ⊆
        seen.map Prod.fst := by
      intro y hy
      obtain ⟨i, hi, rfl⟩ := List.mem_map.1 hy
      exact h i (List.mem_range.1 hi)
    have := (List.subperm_of_subset hnd hsub).length_le
    simp at this
    omega

theorem mem_keys_setKw {α : Type} {k y : Text} {v : α} : ∀ {d : List (Text × α)},
    y ∈ (setKw k v d).map Prod.fst ↔ y = k ∨ y ∈ d.map Prod.fst
  | [] => by simp [setKw]
  | (a, b) :: d => by
    unfold setKw
    split
    · rename_i h
      subst h
      simp
    · simp only [List.map_cons, List.mem_cons, mem_keys_setKw (d := d)]
      tauto

theorem getKw_none_iff {α : Type} {k : Text} : ∀ {d : List (Text × α)},
    getKw k d = none → k ∉ d.map Prod.fst
  | [], _ => by simp
  | (a, b) :: d, h => by
    unfold getKw at h
    split at h
    · cases h
    · rename_i hne
      simp only [List.map_cons, List.mem_cons, not_or]
      exact ⟨fun e => hne (by simp_all), getKw_none_iff h⟩

theorem dedupeFrom_spec : ∀ (xs : List Text) (seen : List (Text × Nat)),
    (dedupeFrom seen xs).Nodup ∧ (∀ y ∈ dedupeFrom seen xs, y ∉ seen.map Prod.fst) ∧
    (dedupeFrom seen xs).length = xs.length ∧
    List.Forall₂ (fun x y => y = x ∨ ∃ n, y = numbered x n) xs (dedupeFrom seen xs)
  | [], _ => ⟨List.nodup_nil, by simp [dedupeFrom], rfl, .nil⟩
  | x :: xs, seen => by
    unfold dedupeFrom
    split
    · rename_i h
      obtain ⟨h1, h2, h3, h4⟩ := dedupeFrom_spec xs (setKw x 1 seen)
      have hx := getKw_none_iff h
      refine ⟨List.nodup_cons.2 ⟨fun hm => h2 x hm (mem_keys_setKw.2 (.inl rfl)), h1⟩, ?_,
        by simp [h3], .cons (.inl rfl) h4⟩
      intro y hy
      rcases List.mem_cons.1 hy with rfl | hy
      · exact hx
      · exact fun hm => h2 y hy (mem_keys_setKw.2 (.inr hm))
    · rename_i count h
      have hfresh := freshCount_not_mem seen x count
      dsimp only
      generalize freshCount seen x (seen.length + 1) count = c at hfresh
      obtain ⟨h1, h2, h3, h4⟩ :=
        dedupeFrom_spec xs (setKw (numbered x c) 1 (setKw x (c + 1) seen))
      refine ⟨List.nodup_cons.2 ⟨fun hm => h2 _ hm (mem_keys_setKw.2 (.inl rfl)), h1⟩, ?_,
        by simp [h3], .cons (.inr ⟨c, rfl⟩) h4⟩
      intro y hy
      rcases List.mem_cons.1 hy with rfl | hy
      · exact hfresh
      · exact fun hm => h2 y hy (mem_keys_setKw.2 (.inr (mem_keys_setKw.2 (.inr hm))))

theorem length_insertText (x : Text) : ∀ ys, (insertText x ys).length = ys.length + 1
  | [] => rfl
  | y :: ys => by unfold insertText; split <;> simp [length_insertText x ys]

theorem length_sortTexts : ∀ xs, (sortTexts xs).length = xs.length
  | [] => rfl
  | x :: xs => by rw [sortTexts, length_insertText, length_sortTexts, List.length_cons]

/-- C35, proved part: in every directory, in any order of its files, the virtual image names are
pairwise different, so are the external image names, and there is one per image. Each name is the one
in some file name, perhaps with a number. -/
theorem C35_unique (listing : List Text) :
    (related listing).virtualNames.Nodup ∧ (related listing).externalNames.Nodup ∧
    (related listing).virtualNames.length = (related listing).virtualImages.length ∧
    (related listing).externalNames.length = (related listing).externalImages.length := by
  unfold related
  refine ⟨(dedupeFrom_spec _ _).1, (dedupeFrom_spec _ _).1, ?_, ?_⟩ <;>
  · dsimp only
    rw [dedupe, (dedupeFrom_spec _ _).2.2.1, length_sortTexts, List.length_map, List.length_map]

theorem sortTexts_sorted : ∀ {xs : List Text}, xs.Pairwise (fun a b => textLe a b = true) →
    sortTexts xs = xs
  | [], _ => rfl
  | [x], _ => rfl
  | x :: y :: ys, h => by
    rw [List.pairwise_cons] at h
    rw [sortTexts, sortTexts_sorted h.2, insertText, if_pos (h.1 y (List.mem_cons_self ..))]

theorem matches'_fst_sublist (name : Text → Option Text) : ∀ listing : List Text,
    ((matches' name listing).map Prod.fst).Sublist listing
  | [] => by simp [matches']
  | f :: fs => by
    have ih := matches'_fst_sublist name fs
    unfold matches' at ih ⊢
    cases h : name f with
    | none => simpa [List.filterMap_cons, h] using ih.cons f
    | some n => simpa [List.filterMap_cons, h] using ih.cons_cons f

theorem matches'_spec (name : Text → Option Text) (listing : List Text) :
    List.Forall₂ (fun f n => name f = some n) ((matches' name listing).map Prod.fst)
      ((matches' name listing).map Prod.snd) := by
  induction listing with
  | nil => exact .nil
  | cons f fs ih =>
    unfold matches' at ih ⊢
    cases h : name f with
    | none => simpa [List.filterMap_cons, h] using ih
    | some n =>
      rw [List.filterMap_cons]
      simp only [h, Option.map_some, List.map_cons]
      exact .cons h ih

theorem forall₂_trans {r : Text → Text → Prop} {s : Text → Text → Prop} :
    ∀ {a b c : List Text}, List.Forall₂ r a b → List.Forall₂ s b c →
      List.Forall₂ (fun x z => ∃ y, r x y ∧ s y z) a c
  | _, _, _, .nil, .nil => .nil
  | _, _, _, .cons h t, .cons h' t' => .cons ⟨_, h, h'⟩ (forall₂_trans t t')

/-- C35, partial: if the directory lists its files in sorted order, each name is the one in the file
at the same place, perhaps with a number. Missing: other orders, see
`C35_fails_unsorted_listing`. -/
theorem C35_matching_partial {listing : List Text}
    (h : listing.Pairwise (fun a b => textLe a b = true)) :
    List.Forall₂ (fun f n => ∃ x, virtualName f = some x ∧ (n = x ∨ ∃ k, n = numbered x k))
      (related listing).virtualImages (related listing).virtualNames ∧
    List.Forall₂ (fun f n => ∃ x, externalName f = some x ∧ (n = x ∨ ∃ k, n = numbered x k))
      (related listing).externalImages (related listing).externalNames := by
  unfold related
  dsimp only
  constructor
  · rw [sortTexts_sorted (h.sublist ((matches'_fst_sublist _ _).trans List.filter_sublist))]
    exact forall₂_trans (matches'_spec _ _) (dedupeFrom_spec _ _).2.2.2
  · rw [sortTexts_sorted (h.sublist (matches'_fst_sublist _ _))]
    exact forall₂_trans (matches'_spec _ _) (dedupeFrom_spec _ _).2.2.2

def vA : Text := "20251103_23389_3_CentroidAmp_centroid_amplitude.mrc".toList
def vB : Text := "20251103_23389_suffix_virt2_BF_sum.mrc".toList
def vC : Text := "20251103_23389_4_BF_sum.mrc".toList
def eA : Text := "20251103_23389_ext1_BF.mrc".toList
def eB : Text := "20251103_23389_ext2.mrc".toList

/-- A sorted listing with a repeated name. -/
example : related [vA, vC, eB, vB] =
    ⟨[vA, vC, vB], ["CentroidAmp".toList, "BF".toList, "BF_1".toList], [eB], ["ext2".toList]⟩ := by
  decide +kernel

/-- With another order of the directory names go to other files: the image "CentroidAmp" is called
"BF". -/
theorem C35_fails_unsorted_listing :
    (related [vC, vA]).virtualImages = [vA, vC] ∧
    (related [vC, vA]).virtualNames = ["BF".toList, "CentroidAmp".toList] ∧
    virtualName vA = some "CentroidAmp".toList := by decide +kernel

/-- A virtual and an external image may have the same name; then the former is lost from the
navigators. -/
theorem C35_fails_virtual_external :
    (related [vC, eA]).virtualNames = (related [vC, eA]).externalNames ∧
    navigators (related [vC, eA]) = [("BF".toList, eA)] := by decide +kernel

theorem foldl_setKw_new : ∀ (ps d : List (Text × Text)), (d.map Prod.fst ++ ps.map Prod.fst).Nodup →
    ps.foldl (fun d p => setKw p.1 p.2 d) d = d ++ ps
  | [], d, _ => by simp
  | (k, v) :: ps, d, h => by
    have hk : k ∉ d.map Prod.fst := by
      intro hm
      rw [List.nodup_append] at h
      exact h.2.2 k hm k (by simp) rfl
    rw [List.foldl_cons, setKw_new hk, foldl_setKw_new ps (d ++ [(k, v)]) (by simpa using h)]
    simp

/-- C35, partial: unless a virtual and an external image have the same name, all images are in the
navigators, each under its name. Missing: the other case. -/
theorem C35_navigators_partial {listing : List Text}
    (h : ∀ n ∈ (related listing).virtualNames, n ∉ (related listing).externalNames) :
    navigators (related listing) =
      (related listing).virtualNames.zip (related listing).virtualImages ++
      (related listing).externalNames.zip (related listing).externalImages := by
  obtain ⟨h1, h2, h3, h4⟩ := C35_unique listing
  have hz : ∀ {a b : List Text}, a.length = b.length → (a.zip b).map Prod.fst = a :=
    fun h => List.map_fst_zip (by omega)
  unfold navigators
  rw [foldl_setKw_new _ [] ?_, List.nil_append]
  rw [List.map_nil, List.nil_append, List.map_append, hz h3, hz h4, List.nodup_append]
  exact ⟨h1, h2, fun a ha b hb e => h a ha (e ▸ hb)⟩

/-- A text is a number, perhaps behind `virt`. -/
def NumLike (s : Text) : Prop :=
  ∃ d : Text, d ≠ [] ∧ (∀ c ∈ d, '0' ≤ c ∧ c ≤ '9') ∧ (s = d ∨ s = 'v' :: 'i' :: 'r' :: 't' :: d)

theorem isDigit_iff (c : Char) : isDigit c = true ↔ '0' ≤ c ∧ c ≤ '9' := by
  unfold isDigit
  rw [decide_eq_true_eq]
  exact Iff.rfl

theorem allDigits_iff (d : Text) : allDigits d = true ↔ d ≠ [] ∧ ∀ c ∈ d, '0' ≤ c ∧ c ≤ '9' := by
  unfold allDigits
  simp [isDigit_iff, List.all_eq_true]

theorem isVirtNum_iff (s : Text) : isVirtNum s = true ↔ NumLike s := by
  unfold isVirtNum NumLike
  rw [Bool.or_eq_true, Bool.and_eq_true, allDigits_iff, allDigits_iff]
  constructor
  · rintro (h | ⟨h1, h2⟩)
    · exact ⟨s, h.1, h.2, .inl rfl⟩
    · obtain ⟨t, rfl⟩ := List.isPrefixOf_iff_prefix.1 h1
      exact ⟨t, by simpa using h2.1, by simpa using h2.2, .inr rfl⟩
  · rintro ⟨d, h1, h2, rfl | rfl⟩
    · exact .inl ⟨h1, h2⟩
    · exact .inr ⟨by simp, by simpa using h1, by simpa using h2⟩

theorem virtualTail_none {ps : List Text} (h : ∀ p ∈ ps, ¬ NumLike p) : virtualTail ps = none := by
  unfold virtualTail
  split
  · rename_i num name kind rest
    have : isVirtNum num = false := by
      rw [← Bool.not_eq_true, isVirtNum_iff]
      exact h num (List.mem_cons_self ..)
    simp [this]
  · rfl

theorem virtualSearch_none : ∀ (ps acc : List Text), (∀ p ∈ ps.tail, ¬ NumLike p) →
    virtualSearch acc ps = none
  | [], _, _ => rfl
  | p :: ps, acc, h => by
    unfold virtualSearch
    dsimp only
    have e : (if (joinUnderscore (acc ++ [p])).isEmpty = true then none else virtualTail ps) = none := by
      split
      · rfl
      · exact virtualTail_none h
    rw [e]
    exact virtualSearch_none ps _ fun q hq => h q (List.mem_of_mem_tail hq)

theorem splitChar_join : ∀ (ps : List Text), ps ≠ [] → (∀ p ∈ ps, '_' ∉ p) →
    splitChar '_' (joinUnderscore ps) = ps
  | [p], _, h => by
    rw [joinUnderscore, splitChar_none (h p (List.mem_cons_self ..))]
  | p :: q :: ps, _, h => by
    rw [joinUnderscore, splitChar_append (h p (List.mem_cons_self ..)),
      splitChar_join (q :: ps) (by simp) fun r hr => h r (List.mem_cons_of_mem _ hr)]

/-- C35: a file `<timestamp>_<number>_<virtual number>_<name>_<type>.mrc` is the virtual image of that
name (no part of name and type looking like a virtual number). -/
theorem C35_virtual_name {ts acq num name : Text} {kind : List Text}
    (hts : ts.length = 8 ∧ ∀ c ∈ ts, '0' ≤ c ∧ c ≤ '9')
    (hacq : acq ≠ [] ∧ ∀ c ∈ acq, '0' ≤ c ∧ c ≤ '9') (hnum : NumLike num) (hname : name ≠ [])
    (hk : kind ≠ []) (hkj : joinUnderscore kind ≠ [] ∧ '.' ∉ joinUnderscore kind)
    (hu : ∀ p ∈ ts :: acq :: num :: name :: kind, '_' ∉ p)
    (hn : ∀ p ∈ name :: kind, ¬ NumLike p) :
    virtualName (joinUnderscore (ts :: acq :: num :: name :: kind) ++ ['.', 'm', 'r', 'c']) =
      some name := by
  have hstem : mrcStem (joinUnderscore (ts :: acq :: num :: name :: kind) ++ ['.', 'm', 'r', 'c']) =
      some (joinUnderscore (ts :: acq :: num :: name :: kind)) := by
    unfold mrcStem
    rw [if_pos (List.suffix_append ..)]
    simp
  have h8 : ts ≠ [] := by
    rintro rfl
    simp at hts
  unfold virtualName
  rw [hstem]
  dsimp only
  rw [splitChar_join _ (by simp) hu]
  dsimp only
  have e : (allDigits ts && decide (ts.length = 8) && allDigits acq) = true := by
    rw [Bool.and_eq_true, Bool.and_eq_true, allDigits_iff, allDigits_iff]
    exact ⟨⟨⟨h8, hts.2⟩, by simpa using hts.1⟩, hacq⟩
  rw [if_pos e, virtualSearch_none _ _ (by simpa using hn)]
  dsimp only
  obtain ⟨k, ks, rfl⟩ := List.exists_cons_of_ne_nil hk
  unfold virtualTail
  dsimp only
  rw [if_pos]
  simp only [Bool.and_eq_true, Bool.not_eq_true']
  refine ⟨⟨⟨(isVirtNum_iff _).2 hnum, ?_⟩, ?_⟩, ?_⟩
  · cases name with
    | nil => exact absurd rfl hname
    | cons => rfl
  · cases h : joinUnderscore (k :: ks) with
    | nil => exact absurd h hkj.1
    | cons => rfl
  · rw [← Bool.not_eq_true, List.contains_iff_mem]
    exact hkj.2

example : vC = joinUnderscore ["20251103".toList, "23389".toList, "4".toList, "BF".toList,
    "sum".toList] ++ ['.', 'm', 'r', 'c'] := by decide +kernel

/-! ### C36 -/

/-- The scale a metadata file gives for a key: 1 if it is missing or -1. -/
def wanted {α : Type} [DecidableEq α] (F : Floats α) (md : Meta) (k : Text) : Option α :=
  match getKw k md with
  | none => some F.one
  | some t => (F.parse t).map fun a => if a = F.minusOne then F.one else a

/-- All scales of a scan are 1, whatever the metadata file says. -/
theorem C36_scan_all_one {α : Type} [DecidableEq α] (F : Floats α) (md : Meta)
    (time sizey sizex ky kx : Int) (axes : List (Axis α))
    (h : scanAxes F md time sizey sizex ky kx = .ok axes) :
    ∀ a ∈ axes, a.scale = .num F.one := by
  simp only [scanAxes, scanScales, bind, Except.bind] at h
  split at h
  · cases h
  · rename_i scales hs
    cases h
    have hsc : ∀ s ∈ scales, s = F.one ∨ s = F.minusOne := by
      split at hs <;> [cases hs; skip]
      split at hs <;> [cases hs; skip]
      split at hs <;> [cases hs; skip]
      split at hs <;> [cases hs; skip]
      split at hs <;> [cases hs; skip]
      cases hs
      intro s hs
      obtain ⟨a, -, rfl⟩ := List.mem_map.1 hs
      split
      · exact .inl rfl
      · rename_i hn
        exact .inr (by simpa using hn)
    intro a ha
    unfold makeAxes at ha
    obtain ⟨e, he, rfl⟩ := List.mem_map.1 ha
    have hm := (List.mem_filter.1 he).1
    have h2 := (List.of_mem_zip (show (e.1, e.2) ∈ _ from hm)).2
    have h3 := (List.of_mem_zip (show (e.2.1, e.2.2) ∈ _ from h2)).2
    obtain ⟨s, hs, hse⟩ := List.mem_map.1 h3
    dsimp only
    rw [← hse]
    rcases hsc s hs with rfl | rfl
    · split <;> rfl
    · rw [if_pos rfl]

/-- C36, partial: the scales of a scan are kept if all of them are 1 or -1 in the file (or missing).
Missing: any other calibration, see `C36_fails_scan`. -/
theorem C36_scan_partial {α : Type} [DecidableEq α] (F : Floats α) (md : Meta)
    (time sizey sizex ky kx : Int) (axes : List (Axis α))
    (h : scanAxes F md time sizey sizex ky kx = .ok axes)
    (h1 : ∀ k ∈ [kSpecY, kSpecX, kDiffY, kDiffX], wanted F md k = some F.one) :
    ∀ a ∈ axes, ∀ k ∈ [(['y'], kSpecY), (['x'], kSpecX), (['k', 'y'], kDiffY),
      (['k', 'x'], kDiffX)], a.name = k.1 → (wanted F md k.2).map .num = some a.scale := by
  intro a ha k hk _
  rw [C36_scan_all_one F md time sizey sizex ky kx axes h a ha, h1 k.2]
  · rfl
  · simp only [List.mem_cons, List.not_mem_nil, or_false] at hk ⊢
    rcases hk with rfl | rfl | rfl | rfl <;> simp

/-- C36, partial: without pixel sizes in the file a movie has scales of 1. -/
theorem C36_movie_partial {α : Type} [DecidableEq α] (F : Floats α) (md : Meta) (d : Bool)
    (axes : List (Axis α)) (h : movieAxes F md d = .ok axes)
    (hy : getKw (if d then kDiffY else kSpecY) md = none)
    (hx : getKw (if d then kDiffX else kSpecX) md = none) :
    ∀ a ∈ axes.tail, a.scale = .num F.one := by
  simp only [movieAxes, movieScales, bind, Except.bind] at h
  split at h
  · cases h
  · rename_i scales hs
    cases h
    split at hs <;> [cases hs; skip]
    split at hs <;> [cases hs; skip]
    rw [hy, hx] at hs
    cases hs
    cases d <;> simp [makeAxes, movieNames]

theorem makeAxes_names {α : Type} [DecidableEq α] (F : Floats α) : ∀ (names : List Text)
    (sizes : List Int) (scales : List (Scale α)), scales.length = sizes.length →
    (makeAxes F names sizes scales).map (fun a => (a.name, a.size)) =
      (names.zip sizes).filter fun e => e.2 ≠ 1
  | [], _, _, _ => by simp [makeAxes]
  | _ :: _, [], _, _ => by simp [makeAxes]
  | n :: ns, s :: ss, [], h => by simp at h
  | n :: ns, s :: ss, c :: cs, h => by
    have ih := makeAxes_names F ns ss cs (by simpa using h)
    unfold makeAxes at ih ⊢
    by_cases hs : s = 1
    · subst hs
      simpa using ih
    · simp [hs] at ih ⊢
      exact ih

/-- C36: the axes of a scan are its dimensions longer than one, in order and with their names. -/
theorem C36_scan_sizes {α : Type} [DecidableEq α] (F : Floats α) (md : Meta)
    (time sizey sizex ky kx : Int) (axes : List (Axis α))
    (h : scanAxes F md time sizey sizex ky kx = .ok axes) :
    axes.map (fun a => (a.name, a.size)) =
      [("time".toList, time), (['y'], sizey), (['x'], sizex), (['k', 'y'], ky),
        (['k', 'x'], kx)].filter fun e => e.2 ≠ 1 := by
  simp only [scanAxes, scanScales, bind, Except.bind] at h
  split at h
  · cases h
  · rename_i scales hs
    cases h
    have hl : scales.length = 6 := by
      split at hs <;> [cases hs; skip]
      split at hs <;> [cases hs; skip]
      split at hs <;> [cases hs; skip]
      split at hs <;> [cases hs; skip]
      split at hs <;> [cases hs; skip]
      cases hs
      rfl
    rw [makeAxes_names F _ _ _ (by simp [hl])]
    simp [scanNames, List.filter_cons]

/-- C36: a movie has the three axes of its kind, with the sizes of the file. -/
theorem C36_movie_sizes {α : Type} [DecidableEq α] (F : Floats α) (md : Meta) (d : Bool)
    (axes : List (Axis α)) (h : movieAxes F md d = .ok axes) (nz ny nx : Nat) :
    (updateSizes axes [nz, ny, nx]).map (fun a => (a.name, a.size)) =
      [("time".toList, (nz : Int)), (if d then ['k', 'y'] else ['y'], (ny : Int)),
        (if d then ['k', 'x'] else ['x'], (nx : Int))] := by
  simp only [movieAxes, bind, Except.bind] at h
  split at h
  · cases h
  · rename_i scales hs
    cases h
    have hl : ∃ a b c, scales = [a, b, c] := by
      simp only [movieScales, bind, Except.bind] at hs
      split at hs <;> [cases hs; skip]
      split at hs <;> [cases hs; skip]
      split at hs <;> cases hs <;> exact ⟨_, _, _, rfl⟩
    obtain ⟨a, b, c, rfl⟩ := hl
    cases d <;> simp [makeAxes, movieNames, updateSizes]

/-- Numbers for the examples: integers written in decimals. -/
def sampleFloats : Floats Int :=
  { parse := fun t => if t = ['-', '1'] then some (-1) else if allDigits t then some (decVal t) else none
    one := 1, two := 2, minusOne := -1, perFrame := fun a b => a * b, text := fun _ => ['s'] }

/-- A pixel size of 10 nm becomes 1. -/
theorem C36_fails_scan :
    (scanAxes sampleFloats [(kSpecY, ['1', '0']), (kSpecX, ['1', '0'])] 1 5 6 7 8).toOption.map
      (·.map fun a => (a.name, a.scale)) =
      some [(['y'], .num 1), (['x'], .num 1), (['k', 'y'], .num 1), (['k', 'x'], .num 1)] ∧
    wanted sampleFloats [(kSpecY, ['1', '0']), (kSpecX, ['1', '0'])] kSpecY = some 10 := by
  decide +kernel

/-- A scan file giving a time but no delay cannot be read. -/
theorem C36_fails_time_without_delay (F : Floats Int) (md : Meta) (t : Text)
    (h1 : getKw kTime md = some t) (h2 : getKw kDelay md = none) (a b c d e : Int) :
    scanAxes F md a b c d e = .error .typeError := by
  have : timeScale F md = .error .typeError := by
    unfold timeScale
    rw [h1, h2]
  simp only [scanAxes, scanScales, bind, Except.bind, this]

/-- In a movie a given pixel size is returned as text, and -1 stays. -/
theorem C36_fails_movie :
    (movieAxes sampleFloats [(kSpecY, ['1', '0']), (kSpecX, ['-', '1'])] false).toOption.map
      (·.map fun a => (a.name, a.scale)) =
      some [(['t', 'i', 'm', 'e'], .text ['s']), (['y'], .text ['1', '0']),
        (['x'], .text ['-', '1'])] := by decide +kernel

/-! ### C54 -/

/-- The dimensions that are kept, with their scales. -/
def keptDims {σ : Type} (scales : List σ) (shape : List Nat) : List (Nat × Option σ) :=
  ((shape.zip scales).filter fun e => e.1 ≠ 1).map fun e => (e.1, some e.2)

/-- C54, partial: if only leading dimensions have length one, each axis has size and scale of its
dimension. Missing: other dimensions of length one, and axes from a Direct Electron file. -/
theorem C54_axes_partial {σ : Type} (scales : List σ) (k : Nat) (rest : List Nat)
    (hl : scales.length = k + rest.length) (h1 : ∀ n ∈ rest, n ≠ 1) :
    fileAxes scales (List.replicate k 1 ++ rest) = keptDims scales (List.replicate k 1 ++ rest) := by
  have hds : dataShape (List.replicate k 1 ++ rest) = rest := by
    unfold dataShape
    rw [List.filter_append, List.filter_replicate, List.filter_eq_self.2 (by simpa using h1)]
    simp
  have hk : keptDims scales (List.replicate k 1 ++ rest) =
      (rest.zip (scales.drop k)).map fun e => (e.1, some e.2) := by
    unfold keptDims
    have hs : scales = scales.take k ++ scales.drop k := (List.take_append_drop k scales).symm
    have htl : (scales.take k).length = k := by rw [List.length_take]; omega
    conv_lhs => rw [hs]
    rw [List.zip_append (by simp [htl]), List.filter_append]
    have e1 : (List.zip (List.replicate k 1) (scales.take k)).filter (fun e => e.1 ≠ 1) = [] := by
      rw [List.filter_eq_nil_iff]
      intro e he
      have := (List.of_mem_zip (show (e.1, e.2) ∈ _ from he)).1
      simp only [List.mem_replicate] at this
      simp [this.2]
    have e2 : (List.zip rest (scales.drop k)).filter (fun e => e.1 ≠ 1) =
        List.zip rest (scales.drop k) := by
      rw [List.filter_eq_self]
      intro e he
      have := (List.of_mem_zip (show (e.1, e.2) ∈ _ from he)).1
      simpa using h1 e.1 this
    rw [e1, e2, List.nil_append]
  rw [hk]
  unfold fileAxes
  rw [hds]
  dsimp only
  apply List.ext_getElem
  · simp; omega
  · intro i h2 h3
    have hi : i < rest.length := by simpa using h2
    simp only [List.getElem_map, List.getElem_range, List.getElem_zip, List.getElem_drop]
    rw [List.getD_eq_getElem?_getD, List.getElem?_eq_getElem hi, Option.getD_some, show i + scales.length - rest.length = k + i by omega,
      List.getElem?_eq_getElem (by omega)]

example : fileAxes ['z', 'y', 'x'] [1, 5, 6] = [(5, some 'y'), (6, some 'x')] := by decide

/-- A stack of lines (height one): the stack gets the scale of the height. -/
theorem C54_fails_inner_length_one :
    fileAxes ['z', 'y', 'x'] [4, 1, 6] = [(4, some 'y'), (6, some 'x')] ∧
    keptDims ['z', 'y', 'x'] [4, 1, 6] = [(4, some 'z'), (6, some 'x')] := by decide

/-- A Direct Electron movie of one frame has three axes for an array of two dimensions. -/
theorem C54_fails_single_frame :
    (movieAxes sampleFloats [] false).toOption.map
      (fun axes => (updateSizes axes [1, 5, 6]).map Axis.size) = some [1, 5, 6] ∧
    dataShape [1, 5, 6] = [5, 6] := by decide +kernel

end Verif.Props.Mrc
