import Verif.Py.Text
/-!
Python dictionaries with text keys as association lists in insertion order.
-/
namespace Verif

section Assoc
variable {α : Type}

/-- `d.get(k)`. -/
def getKw (k : Text) : List (Text × α) → Option α
  | [] => none
  | (k', v) :: d => if k' = k then some v else getKw k d

/-- `d[k] = v`: replaces in place or appends. -/
def setKw (k : Text) (v : α) : List (Text × α) → List (Text × α)
  | [] => [(k, v)]
  | (k', v') :: d => if k' = k then (k, v) :: d else (k', v') :: setKw k v d

/-- `del d[k]` if present. -/
def delKw (k : Text) (d : List (Text × α)) : List (Text × α) := d.filter fun e => e.1 ≠ k

end Assoc

theorem getKw_none {α : Type} {k : Text} : ∀ {d : List (Text × α)}, k ∉ d.map Prod.fst →
    getKw k d = none
  | [], _ => rfl
  | (k', v) :: d, h => by
    simp only [List.map_cons, List.mem_cons, not_or] at h
    rw [getKw, if_neg (fun e => h.1 e.symm), getKw_none h.2]

theorem setKw_append {α : Type} {k : Text} {v : α} : ∀ {d : List (Text × α)},
    k ∉ d.map Prod.fst → ∀ e, setKw k v (d ++ (k, e) :: []) = d ++ [(k, v)]
  | [], _, e => by simp [setKw]
  | (k', v') :: d, h, e => by
    simp only [List.map_cons, List.mem_cons, not_or] at h
    rw [List.cons_append, setKw, if_neg (fun e => h.1 e.symm), setKw_append h.2 e]
    rfl

theorem setKw_new {α : Type} {k : Text} {v : α} : ∀ {d : List (Text × α)},
    k ∉ d.map Prod.fst → setKw k v d = d ++ [(k, v)]
  | [], _ => rfl
  | (k', v') :: d, h => by
    simp only [List.map_cons, List.mem_cons, not_or] at h
    rw [setKw, if_neg (fun e => h.1 e.symm), setKw_new h.2]
    rfl

theorem getKw_append {α : Type} {k : Text} {v : α} : ∀ {d : List (Text × α)},
    k ∉ d.map Prod.fst → getKw k (d ++ [(k, v)]) = some v
  | [], _ => by simp [getKw]
  | (k', v') :: d, h => by
    simp only [List.map_cons, List.mem_cons, not_or] at h
    rw [List.cons_append, getKw, if_neg (fun e => h.1 e.symm), getKw_append h.2]

theorem setKw_same {α : Type} {k : Text} {v : α} : ∀ {d : List (Text × α)},
    getKw k d = some v → setKw k v d = d
  | [], h => by simp [getKw] at h
  | (k', v') :: d, h => by
    unfold getKw at h
    unfold setKw
    split at h
    · rename_i hk
      rw [if_pos hk, ← hk]
      cases h; rfl
    · rename_i hk
      rw [if_neg hk, setKw_same h]

theorem getKw_setKw {α : Type} (k k' : Text) (v : α) : ∀ d : List (Text × α),
    getKw k' (setKw k v d) = if k' = k then some v else getKw k' d
  | [] => by
    by_cases h : k' = k
    · simp [setKw, getKw, h]
    · simp [setKw, getKw, h, Ne.symm h]
  | (k₁, v₁) :: d => by
    unfold setKw
    by_cases h1 : k₁ = k
    · subst h1
      by_cases h : k' = k₁
      · simp [getKw, h]
      · simp [getKw, h, Ne.symm h]
    · rw [if_neg h1, getKw, getKw, getKw_setKw k k' v d]
      by_cases h2 : k₁ = k'
      · subst h2
        simp [h1]
      · simp [h2]

theorem getKw_mem {α : Type} {k : Text} {v : α} : ∀ {d : List (Text × α)},
    (d.map Prod.fst).Nodup → (k, v) ∈ d → getKw k d = some v
  | (k', v') :: d, hnd, h => by
    simp only [List.map_cons, List.nodup_cons] at hnd
    rcases List.mem_cons.1 h with h | h
    · cases h; simp [getKw]
    · have : k' ≠ k := by
        intro e
        subst e
        exact hnd.1 (List.mem_map.2 ⟨_, h, rfl⟩)
      rw [getKw, if_neg this, getKw_mem hnd.2 h]

end Verif
