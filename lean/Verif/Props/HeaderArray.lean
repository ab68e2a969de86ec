import Verif.Model.HeaderArray
/-! Property C09: header records and dictionaries. -/
namespace Verif.Props.HeaderArray
open Verif Verif.HeaderArray

/-- `order` lists exactly the names that are fields of the array and keys of the dictionary. -/
def Intersection {α : Type} (names : List String) (d : Dict α) (order : List String) : Prop :=
  order.Nodup ∧ ∀ n, n ∈ order ↔ n ∈ names ∧ (d n).isSome

theorem foldl_set {α : Type} (a : SArr α) : ∀ (ns : List String) (d : Dict α) (n : String),
    (ns.foldl (fun d n => d.set n (entryOf (a.col n))) d) n =
      if n ∈ ns then some (entryOf (a.col n)) else d n
  | [], d, n => by simp
  | m :: ns, d, n => by
    rw [List.foldl_cons, foldl_set a ns]
    by_cases h : n ∈ ns
    · simp [h]
    · by_cases h2 : n = m
      · subst h2; simp [h, Dict.set]
      · simp [h, h2, Dict.set]

theorem fill_ok {α : Type} (d : Dict α) (val : String → α) :
    ∀ (order : List String) (a : SArr α), order.Nodup →
      (∀ n ∈ order, d n = some (.one (val n))) → (∀ n, (a.col n).length = 1) →
      ∃ b, fill d order a = .ok b ∧ b.names = a.names ∧
        ∀ n, b.col n = if n ∈ order then [val n] else a.col n
  | [], a, _, _, _ => ⟨a, rfl, rfl, fun n => by simp⟩
  | m :: ns, a, hnd, hd, hl => by
    have hm := hd m (by simp)
    obtain ⟨x, hx⟩ : ∃ x, a.col m = [x] := by
      have := hl m
      match h : a.col m with
      | [x] => exact ⟨x, rfl⟩
      | [] => rw [h] at this; simp at this
      | _ :: _ :: _ => rw [h] at this; simp at this
    unfold fill
    rw [hm]
    simp only [assign, hx]
    obtain ⟨b, h1, h2, h3⟩ := fill_ok d val ns
      { a with col := fun k => if k = m then [val m] else a.col k }
      (List.nodup_cons.1 hnd).2 (fun n hn => hd n (by simp [hn]))
      (fun n => by simp only; split <;> simp [hl])
    refine ⟨b, h1, h2, fun n => ?_⟩
    rw [h3 n]
    by_cases hn : n ∈ ns
    · simp [hn]
    · by_cases he : n = m
      · subst he; simp [hn]
      · simp [hn, he]

/-- C09. For a header (a structured array with one record): converting it to a dictionary
(added to any dictionary `extra`) and filling a new header of the same dtype with it, in any
order of the fields, gives back the same field values. Keys that are not fields are ignored. -/
theorem C09_header_roundtrip {α : Type} (a : SArr α) (zero : α) (extra : Dict α)
    (hone : ∀ n, (a.col n).length = 1) (order : List String)
    (horder : Intersection a.names (sarray2dict a extra) order) :
    ∃ b, fill (sarray2dict a extra) order (zeros1 zero a.names) = .ok b ∧
      b.names = a.names ∧ ∀ n ∈ a.names, b.col n = a.col n := by
  have hcol : ∀ n, ∃ x, a.col n = [x] := by
    intro n
    have := hone n
    match h : a.col n with
    | [x] => exact ⟨x, rfl⟩
    | [] => rw [h] at this; simp at this
    | _ :: _ :: _ => rw [h] at this; simp at this
  have hval : ∀ n ∈ a.names, sarray2dict a extra n = some (.one ((a.col n).head?.getD zero)) := by
    intro n hn
    obtain ⟨x, hx⟩ := hcol n
    unfold sarray2dict
    rw [foldl_set, if_pos hn, hx]
    rfl
  obtain ⟨b, h1, h2, h3⟩ := fill_ok (sarray2dict a extra) (fun n => (a.col n).head?.getD zero) order
    (zeros1 zero a.names) horder.1 (fun n hn => hval n ((horder.2 n).1 hn).1) (fun n => rfl)
  refine ⟨b, h1, h2, fun n hn => ?_⟩
  have hmem : n ∈ order := (horder.2 n).2 ⟨hn, by rw [hval n hn]; rfl⟩
  rw [h3 n, if_pos hmem]
  obtain ⟨x, hx⟩ := hcol n
  simp [hx]

/-- C09. Fields that are not keys of the dictionary keep their value (a given header is only
updated), and every other field gets the dictionary's value; unknown keys have no effect. -/
theorem C09_update {α : Type} (a : SArr α) (d : Dict α) (val : String → α)
    (hone : ∀ n, (a.col n).length = 1) (hd : ∀ n e, d n = some e → e = .one (val n))
    (order : List String) (horder : Intersection a.names d order) :
    ∃ b, fill d order a = .ok b ∧ b.names = a.names ∧
      ∀ n ∈ a.names, b.col n = if (d n).isSome then [val n] else a.col n := by
  obtain ⟨b, h1, h2, h3⟩ := fill_ok d val order a horder.1 (fun n hn => by
    obtain ⟨_, hs⟩ := (horder.2 n).1 hn
    obtain ⟨e, he⟩ := Option.isSome_iff_exists.1 hs
    rw [he, hd n e he]) hone
  refine ⟨b, h1, h2, fun n hn => ?_⟩
  rw [h3 n]
  by_cases hs : (d n).isSome
  · rw [if_pos ((horder.2 n).2 ⟨hn, hs⟩), if_pos hs]
  · rw [if_neg (fun h => hs ((horder.2 n).1 h).2), if_neg hs]

/-- A dictionary made from an array with several records does not fit a header: the value is
rejected with `ValueError` (this is why the property is about one record). -/
theorem C09_many_records_rejected :
    fill (sarray2dict (⟨["a"], fun _ => [1, 2]⟩ : SArr Nat) (fun _ => none)) ["a"] (zeros1 0 ["a"])
      = .error .valueError := rfl

/-- Two fields, one foreign key; both iteration orders are intersections. -/
example : Intersection ["x", "y"] (sarray2dict (⟨["x", "y"], fun n => if n = "x" then [4] else [5]⟩ : SArr Nat)
    (fun k => if k = "z" then some (.one 9) else none)) ["y", "x"] := by
  refine ⟨by decide, fun n => ?_⟩
  constructor
  · intro h
    simp at h
    rcases h with h | h <;> subst h <;> decide
  · rintro ⟨h, _⟩
    simp at h ⊢
    exact h.symm

end Verif.Props.HeaderArray
