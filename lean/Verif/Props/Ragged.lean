import Verif.Model.Ragged
/-! Property C17: ragged arrays survive flattening. -/
namespace Verif.Props.Ragged
open Verif Verif.Ragged

variable {δ α : Type}

/-- Every cell has as many elements as its shape says. -/
def WellFormed (x : RaggedArr δ α) : Prop :=
  ∀ c ∈ x.cells, elemsLength c.elems = c.shape.prod

/-- No cell is an empty array of strings. -/
def NoEmptyText (x : RaggedArr δ α) : Prop := ∀ c ∈ x.cells, c.elems ≠ .texts []

theorem unflattenAll_flatten (float : δ) (isHdf5 : Bool) : ∀ cells : List (Cell δ α),
    (∀ c ∈ cells, elemsLength c.elems = c.shape.prod) →
    (isHdf5 = true ∨ ∀ c ∈ cells, c.elems ≠ .texts []) →
    unflattenAll float (cells.map (flattenCell isHdf5)) = .ok cells
  | [], _, _ => rfl
  | c :: cs, hw, ht => by
    have ih := unflattenAll_flatten float isHdf5 cs (fun d hd => hw d (List.mem_cons_of_mem _ hd))
      (ht.imp id fun h d hd => h d (List.mem_cons_of_mem _ hd))
    have hc := hw c List.mem_cons_self
    have key : toArray float (flattenCell isHdf5 c).1 = c.elems ∧
        (flattenCell isHdf5 c).2 = c.shape := by
      have htc : isHdf5 = true ∨ c.elems ≠ .texts [] := ht.imp id fun h => h c List.mem_cons_self
      rcases c with ⟨s, e⟩
      cases e with
      | nums d vs => exact ⟨rfl, rfl⟩
      | texts vs =>
        cases isHdf5 with
        | true => exact ⟨rfl, rfl⟩
        | false =>
          cases vs with
          | nil => exact absurd rfl (htc.resolve_left (by simp))
          | cons v vs => exact ⟨rfl, rfl⟩
    show unflattenAll float (flattenCell isHdf5 c :: cs.map (flattenCell isHdf5)) = _
    rcases hf : flattenCell isHdf5 c with ⟨d, s⟩
    rw [hf] at key
    simp only at key
    unfold unflattenAll
    rw [key.1, key.2, ih]
    simp [reshape, hc]

/-- **C17 (partial)**: `flatten_data` followed by `unflatten_data` gives back the same ragged
array, cell by cell, each with its own shape and type, for hspy and zspy. Missing: cells that
are empty arrays of strings in zspy (see `C17_fails_empty_text_cell`). -/
theorem C17_flatten_unflatten_partial (float : δ) (isHdf5 : Bool) (x : RaggedArr δ α)
    (hw : WellFormed x) (ht : isHdf5 = true ∨ NoEmptyText x) :
    unflatten float (flatten isHdf5 x).1 (flatten isHdf5 x).2 = .ok x := by
  unfold unflatten flatten
  rw [unflattenAll_flatten float isHdf5 x.cells hw ht]

example : WellFormed (⟨[2], [⟨[2, 1], .nums 'f' [3, 4]⟩, ⟨[], .texts ["a"]⟩]⟩ : RaggedArr Char Int) ∧
    NoEmptyText (⟨[2], [⟨[2, 1], .nums 'f' [3, 4]⟩, ⟨[], .texts ["a"]⟩]⟩ : RaggedArr Char Int) := by
  refine ⟨?_, ?_⟩ <;> intro c hc <;> simp only [List.mem_cons, List.not_mem_nil, or_false] at hc <;>
    rcases hc with rfl | rfl <;> simp [elemsLength]

/-- The shapes alone survive in all cases: no cell ever gets the shape of another cell, and an
empty text cell only loses its element type. -/
theorem C17_shapes (float : δ) (isHdf5 : Bool) (x : RaggedArr δ α) (hw : WellFormed x) :
    ∃ y, unflatten float (flatten isHdf5 x).1 (flatten isHdf5 x).2 = .ok y ∧
      y.navShape = x.navShape ∧ y.cells.map Cell.shape = x.cells.map Cell.shape ∧
      y.cells.map (fun c => elemsLength c.elems) = x.cells.map (fun c => elemsLength c.elems) := by
  have key : ∀ cells : List (Cell δ α), (∀ c ∈ cells, elemsLength c.elems = c.shape.prod) →
      ∃ ys, unflattenAll float (cells.map (flattenCell isHdf5)) = .ok ys ∧
        ys.map Cell.shape = cells.map Cell.shape ∧
        ys.map (fun c => elemsLength c.elems) = cells.map (fun c => elemsLength c.elems) := by
    intro cells
    induction cells with
    | nil => intro _; exact ⟨[], rfl, rfl, rfl⟩
    | cons c cs ih =>
      intro h
      obtain ⟨ys, h1, h2, h3⟩ := ih fun d hd => h d (List.mem_cons_of_mem _ hd)
      have hl : elemsLength (toArray float (flattenCell isHdf5 c).1) = elemsLength c.elems ∧
          (flattenCell isHdf5 c).2 = c.shape := by
        rcases c with ⟨s, e⟩
        cases e with
        | nums d vs => exact ⟨rfl, rfl⟩
        | texts vs => cases isHdf5 <;> cases vs <;> exact ⟨rfl, rfl⟩
      refine ⟨⟨c.shape, toArray float (flattenCell isHdf5 c).1⟩ :: ys, ?_, ?_, ?_⟩
      · show unflattenAll float (flattenCell isHdf5 c :: cs.map (flattenCell isHdf5)) = _
        rcases hf : flattenCell isHdf5 c with ⟨d, s⟩
        rw [hf] at hl
        simp only at hl
        unfold unflattenAll
        have hc := h c List.mem_cons_self
        rw [hl.2, h1]
        simp [reshape, hl.1, hc]
      · simp [h2]
      · simp [h3, hl.1]
  obtain ⟨ys, h1, h2, h3⟩ := key x.cells hw
  refine ⟨⟨x.navShape, ys⟩, ?_, rfl, h2, h3⟩
  unfold unflatten flatten
  rw [h1]

/-- C17 is false in zspy for an empty array of strings: it comes back as a float array. -/
theorem C17_fails_empty_text_cell :
    let x : RaggedArr String Int := ⟨[1], [⟨[0], .texts []⟩]⟩
    WellFormed x ∧ unflatten "float64" (flatten false x).1 (flatten false x).2
      = .ok ⟨[1], [⟨[0], .nums "float64" []⟩]⟩ := by
  refine ⟨?_, by decide⟩
  intro c hc
  simp only [List.mem_cons, List.not_mem_nil, or_false] at hc
  subst hc
  simp [elemsLength]

/-- All cells have the element type of the first one. -/
def OneType (x : RaggedArr δ α) : Prop :=
  (∃ d, ∀ c ∈ x.cells, ∃ vs, c.elems = .nums d vs) ∨ (∀ c ∈ x.cells, ∃ vs, c.elems = .texts vs)

/-- **C17, through the file (partial)**: a ragged array with at least one cell whose cells all
have the same element type is read back as saved. -/
theorem C17_save_load_partial (cast : δ → δ → α → α) (hcast : ∀ d v, cast d d v = v) (float : δ)
    (isHdf5 : Bool) (x : RaggedArr δ α) (hne : x.cells ≠ []) (hw : WellFormed x)
    (ht : isHdf5 = true ∨ NoEmptyText x) (hone : OneType x) :
    saveLoad cast float isHdf5 x = .ok x := by
  have hun := C17_flatten_unflatten_partial float isHdf5 x hw ht
  have hst : ∀ (t : DsetType δ) (cells : List (Cell δ α)),
      (∀ c ∈ cells, storeCell cast t (flattenCell isHdf5 c).1 = .ok (flattenCell isHdf5 c).1) →
      storeAll cast t (cells.map (flattenCell isHdf5)) = .ok (cells.map (flattenCell isHdf5)) := by
    intro t cells
    induction cells with
    | nil => intro _; rfl
    | cons c cs ih =>
      intro h
      have h1 := ih fun d hd => h d (List.mem_cons_of_mem _ hd)
      have h2 := h c List.mem_cons_self
      show storeAll cast t (flattenCell isHdf5 c :: cs.map (flattenCell isHdf5)) = _
      rcases hf : flattenCell isHdf5 c with ⟨d, s⟩
      rw [hf] at h2
      unfold storeAll
      simp only at h2
      rw [h2, h1]
      simp [hf]
  have hid : ∀ (d : δ) (vs : List α), vs.map (cast d d) = vs := fun d vs => by
    rw [show cast d d = id from funext (hcast d)]; simp
  unfold saveLoad
  have htype : ∃ t, datasetType (flatten isHdf5 x).2 = .ok t ∧
      ∀ c ∈ x.cells, storeCell cast t (flattenCell isHdf5 c).1 = .ok (flattenCell isHdf5 c).1 := by
    unfold flatten
    rcases hcs : x.cells with _ | ⟨c, cs⟩
    · exact absurd hcs hne
    rcases hone with ⟨d, hd⟩ | hd
    · refine ⟨.num d, ?_, ?_⟩
      · obtain ⟨vs, hvs⟩ := hd c (by rw [hcs]; exact List.mem_cons_self)
        simp [datasetType, flattenCell, hvs]
      · intro c' hc'
        obtain ⟨vs, hvs⟩ := hd c' (by rw [hcs]; exact hc')
        simp [flattenCell, hvs, storeCell, hid]
    · refine ⟨.text, ?_, ?_⟩
      · obtain ⟨vs, hvs⟩ := hd c (by rw [hcs]; exact List.mem_cons_self)
        cases isHdf5 <;> simp [datasetType, flattenCell, hvs]
      · intro c' hc'
        obtain ⟨vs, hvs⟩ := hd c' (by rw [hcs]; exact hc')
        cases isHdf5 <;> simp [flattenCell, hvs, storeCell]
  obtain ⟨t, ht1, ht2⟩ := htype
  simp only [ht1]
  have := hst t x.cells ht2
  rw [show (flatten isHdf5 x).2 = x.cells.map (flattenCell isHdf5) from rfl] at *
  rw [this]
  exact hun

example : OneType (⟨[2], [⟨[2], .nums 'f' [3, 4]⟩, ⟨[1, 1], .nums 'f' [5]⟩]⟩ : RaggedArr Char Int) :=
  .inl ⟨'f', by 
    intro c hc
    simp only [List.mem_cons, List.not_mem_nil, or_false] at hc
    rcases hc with rfl | rfl <;> exact ⟨_, rfl⟩⟩

/-- Cells of another numeric type are cast to the type of the first cell and come back with that type: values are lost. -/
theorem C17_fails_mixed_types :
    let x : RaggedArr String Rat := ⟨[2], [⟨[1], .nums "int" [1]⟩, ⟨[1], .nums "float" [3 / 2]⟩]⟩
    let cast : String → String → Rat → Rat := fun d d' v =>
      if d' = "int" ∧ d ≠ d' then (v.floor : Rat) else v
    (∀ d v, cast d d v = v) ∧ saveLoad cast "float" true x = .ok ⟨[2], [⟨[1], .nums "int" [1]⟩, ⟨[1], .nums "int" [1]⟩]⟩ := by
  refine ⟨fun d v => by simp, ?_⟩
  decide +kernel

end Verif.Props.Ragged
