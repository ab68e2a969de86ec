import Verif.Lemmas.EmdNcemRead
/-! Lemmas for EMD files: signals of one dataset and of a stack. -/
namespace Verif.Lemmas.EmdNcem
open Verif Verif.EmdNcem Verif.Spec.EmdNcem

/-- The first number of a dimension. -/
def base (zero : Bool) : Nat := if zero then 0 else 1

theorem place_iff {f : File} {r : Rec} (hg : Path r.group) {n j i : Nat} (hj : j < n) (h : Place f r n j i) :
    i < n ∧ (if transposed f r.group r.name then n - 1 - i else i) = j := by
  by_cases hr : Reversed f r
  · rw [if_pos ((transposed_iff hg).2 hr)]
    have := h.1 hr
    omega
  · rw [if_neg (fun e => hr ((transposed_iff hg).1 e))]
    have := h.2 hr
    omega

theorem place_of {f : File} {r : Rec} (hg : Path r.group) {n i : Nat} (hi : i < n) :
    Place f r n (if transposed f r.group r.name then n - 1 - i else i) i ∧
      (if transposed f r.group r.name then n - 1 - i else i) < n := by
  by_cases hr : Reversed f r
  · rw [if_pos ((transposed_iff hg).2 hr)]
    exact ⟨⟨fun _ => by omega, fun h => absurd hr h⟩, by omega⟩
  · rw [if_neg (fun e => hr ((transposed_iff hg).1 e))]
    exact ⟨⟨fun h => absurd h hr, fun _ => rfl⟩, hi⟩

theorem holds_dim {env : Env} {f : File} {r : Rec} (h : Holds env f r) {j : Nat} {x : Dim} (hx : r.dims[j]? = some x) :
    HoldsDim env f (inside r.group (dim (j + base (dim0 f r.group)))) x := by
  have hg := h.1.1
  have := h.2.2 j x hx
  by_cases hz : FromZero f r.group
  · rw [(dim0_iff hg).2 hz]
    exact this.1 hz
  · have e : dim0 f r.group = false := by rw [Bool.eq_false_iff]; exact fun e => hz ((dim0_iff hg).1 e)
    rw [e]
    exact this.2 hz

/-- The axes of the dimensions, for a list of indices. -/
theorem axes_ok {env : Env} {f : File} {r : Rec} (h : Holds env f r) {sh : List Nat} {off : Nat} {L : List (Nat × Nat)}
    (hlen : L.length = r.shape.length) (hL : ∀ i, i < r.shape.length → L[i]? = some (i + off,
      (if transposed f r.group r.name then r.shape.length - 1 - i else i) + base (dim0 f r.group))) :
    ∃ axes, L.mapM (fun p => dimAxis env f r.group r.name sh p.1 p.2) = .ok axes ∧ axes.length = r.shape.length ∧
      ∀ j i x, r.dims[j]? = some x → Place f r r.shape.length j i → i < r.shape.length ∧
        axes[i]? = some ⟨i + off, x.name, x.units, sh.getD (i + off) 0, x.offset, some x.scale,
          navigates f r.name (dim (j + base (dim0 f r.group)))⟩ := by
  have hg := h.1.1
  let g : Nat × Nat → Axis := fun p =>
    let x := (r.dims[p.2 - base (dim0 f r.group)]?).getD ⟨0, 0, none, none⟩
    ⟨p.1, x.name, x.units, sh.getD p.1 0, x.offset, some x.scale, navigates f r.name (dim p.2)⟩
  refine ⟨L.map g, ?_, by rw [List.length_map, hlen], ?_⟩
  · apply Verif.Props.JobinYvon.mapM_ok
    intro p hp
    obtain ⟨i, hi, rfl⟩ := List.getElem_of_mem hp
    have hi' : i < r.shape.length := hlen ▸ hi
    have hLi := hL i hi'
    rw [List.getElem?_eq_getElem hi] at hLi
    have hLi := Option.some.inj hLi
    obtain ⟨_, hj⟩ := place_of (f := f) (r := r) hg hi'
    generalize (if transposed f r.group r.name then r.shape.length - 1 - i else i) = j at hLi hj
    obtain ⟨x, hx⟩ : ∃ x, r.dims[j]? = some x := ⟨r.dims[j]'(h.2.1 ▸ hj), List.getElem?_eq_getElem _⟩
    rw [hLi]
    show dimAxis env f r.group r.name sh (i + off) (j + base (dim0 f r.group)) = .ok (g (i + off, j + base (dim0 f r.group)))
    rw [dimAxis_ok hg (holds_dim h hx)]
    simp only [g, Nat.add_sub_cancel, hx, Option.getD_some]
  · intro j i x hx hp
    have hj : j < r.shape.length := by
      rw [← h.2.1]
      exact (List.getElem?_eq_some_iff.1 hx).1
    obtain ⟨hi, he⟩ := place_iff hg hj hp
    refine ⟨hi, ?_⟩
    rw [List.getElem?_map, hL i hi, he]
    simp only [g, Option.map_some, Nat.add_sub_cancel, hx, Option.getD_some]

theorem orient_place {f : File} {r : Rec} (hg : Path r.group) : PlaceIdx f r r.shape
    (orient (transposed f r.group r.name) ⟨r.shape, ravel r.shape r.val⟩).shape := by
  rw [orient_data.1]
  by_cases hr : Reversed f r
  · rw [if_pos ((transposed_iff hg).2 hr)]
    exact ⟨fun _ => rfl, fun h => absurd hr h⟩
  · rw [if_neg (fun e => hr ((transposed_iff hg).1 e))]
    exact ⟨fun h => absurd h hr, fun _ => rfl⟩

theorem placeIdx_iff {f : File} {r : Rec} (hg : Path r.group) {a b : List Nat} : PlaceIdx f r a b ↔
    b = (if transposed f r.group r.name then a.reverse else a) := by
  by_cases hr : Reversed f r
  · rw [if_pos ((transposed_iff hg).2 hr)]
    exact ⟨fun h => h.1 hr, fun h => ⟨fun _ => h, fun h' => absurd hr h'⟩⟩
  · rw [if_neg (fun e => hr ((transposed_iff hg).1 e))]
    exact ⟨fun h => h.2 hr, fun h => ⟨fun h' => absurd h' hr, fun _ => h⟩⟩

theorem nav_dim {f : File} {r : Rec} (hg : Path r.group) (j : Nat) :
    navigates f r.name (dim (j + base (dim0 f r.group))) = false ↔ Detector f r j := by
  apply navigates_iff
  constructor
  · intro hz; rw [(dim0_iff hg).2 hz]; rfl
  · intro hz
    have e : dim0 f r.group = false := by rw [Bool.eq_false_iff]; exact fun e => hz ((dim0_iff hg).1 e)
    rw [e]; rfl

/-- The size of the axis at a place. -/
theorem place_size {f : File} {r : Rec} (hg : Path r.group) {sh : List Nat} (hs : PlaceIdx f r r.shape sh) {j i : Nat}
    (hj : j < r.shape.length) (h : Place f r r.shape.length j i) : some (sh.getD i 0) = r.shape[j]? := by
  rw [placeIdx_iff hg] at hs
  obtain ⟨hi, he⟩ := place_iff hg hj h
  subst hs
  rw [List.getD_eq_getElem?_getD]
  by_cases ht : transposed f r.group r.name = true
  · rw [if_pos ht] at he ⊢
    rw [List.getElem?_reverse hi, he, List.getElem?_eq_getElem hj]
    rfl
  · rw [if_neg ht] at he ⊢
    subst he
    rw [List.getElem?_eq_getElem hj]
    rfl

theorem readDataset_ok {d : Dset} {sh : List Nat} {val : List Nat → Val} (h : d.arr = ⟨sh, ravel sh val⟩) (hs : sh ≠ []) :
    readDataset (.dset d) = .ok ⟨sh, ravel sh val⟩ := by
  unfold readDataset
  dsimp only
  rw [if_neg (by rw [h]; exact hs), h]

theorem getKw_holds {f : File} {r : Rec} (h : HoldsData f r) : ∃ o, get f (child r.group r.name) = some o ∧
    readDataset o = .ok ⟨r.shape, ravel r.shape r.val⟩ := by
  obtain ⟨hg, hn, hs, d, hd, ha⟩ := h
  exact ⟨.dset d, by rw [get_inside hg hn, hd], readDataset_ok ha hs⟩

/-- One dataset. -/
theorem read_one {env : Env} {f : File} {r : Rec} (h : Holds env f r) (key : Text) (om : Original) :
    ∃ a axes, readGroups env f r.group [] r.name key om = .ok (a, axes) ∧ ∀ t n s o, Shows f r ⟨a, axes, t, n, s, o⟩ := by
  have hg := h.1.1
  obtain ⟨o, ho, hr⟩ := getKw_holds h.1
  obtain ⟨axes, hax, hlen, haxes⟩ := axes_ok h (sh := (orient (transposed f r.group r.name) ⟨r.shape, ravel r.shape r.val⟩).shape)
    (off := 0) (L := indices false (dim0 f r.group) (transposed f r.group r.name) r.shape.length) indices_len
    (fun i hi => by rw [indices_get hi]; rfl)
  refine ⟨orient (transposed f r.group r.name) ⟨r.shape, ravel r.shape r.val⟩, axes, ?_, ?_⟩
  · unfold readGroups datasets
    have e1 : List.map (fun g => get f (child g r.name)) [r.group] = [some o] := by rw [List.map_cons, ho]; rfl
    rw [e1]
    have hload : ∀ rev, loadData rev [o] = .ok (orient rev ⟨r.shape, ravel r.shape r.val⟩) := by
      intro rev
      unfold loadData
      rw [List.mapM_cons, hr, List.mapM_nil]
      simp only [bind, Except.bind, pure, Except.pure]
      cases rev <;> rfl
    have e2 : List.reduceOption [some o] = [o] := rfl
    have e3 : ([some o] : List (Option Obj)).any Option.isNone = false := rfl
    dsimp only
    rw [e2, e3]
    have e5 : stackAxis f om key [] = .ok [] := rfl
    simp only [hload, e5, bind, Except.bind, Bool.false_eq_true, if_false, List.isEmpty_nil, Bool.not_true]
    have e4 : (orient (transposed f r.group r.name) ⟨r.shape, ravel r.shape r.val⟩).shape.length = r.shape.length := by
      rw [orient_data.1]; split <;> simp
    rw [e4, hax]
    simp
  · intro t n s om'
    refine ⟨orient_place hg, ?_, ?_, hlen, ?_⟩
    · show (orient _ _).data.length = size (orient _ _).shape
      rw [orient_data.2.1, orient_data.1]
      split
      · rw [size_reverse]
      · rfl
    · intro idx idx' hb hp
      rw [placeIdx_iff hg] at hp
      subst hp
      show (orient _ _).data[flatIndex (orient _ _).shape _]? = _
      rw [orient_data.1]
      exact orient_data.2.2 idx hb
    · intro j i x hx hp
      have hj : j < r.shape.length := by
        rw [← h.2.1]
        exact (List.getElem?_eq_some_iff.1 hx).1
      obtain ⟨hi, ha⟩ := haxes j i x hx hp
      refine ⟨_, ha, rfl, rfl, rfl, ?_, rfl, rfl, nav_dim hg j⟩
      exact place_size hg (orient_place hg) hj hp

end Verif.Lemmas.EmdNcem
