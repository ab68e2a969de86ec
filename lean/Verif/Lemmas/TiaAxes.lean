import Verif.Lemmas.Tia
/-! Lemmas for C65, C66: axes and data of `.ser` files. -/
namespace Verif.Tia
open Verif Verif.Spec.Tia

theorem size_append (a b : List Nat) : size (a ++ b) = size a * size b := by
  induction a with
  | nil => simp [size]
  | cons n a ih => rw [List.cons_append, size, size, ih, Nat.mul_assoc]

theorem flatIndex_append : ∀ {a I : List Nat} (b J : List Nat), InBounds a I →
    flatIndex (a ++ b) (I ++ J) = flatIndex a I * size b + flatIndex b J
  | _, _, b, J, .nil => by simp [flatIndex]
  | n :: a, i :: I, b, J, .cons h t => by
    rw [List.cons_append, List.cons_append, flatIndex, flatIndex, flatIndex_append b J t, size_append]
    ring

theorem flatten_get {V : Type} {n : Nat} : ∀ {arrays : List (List V)}, (∀ a ∈ arrays, a.length = n) → ∀ {k j : Nat} {a : List V},
    arrays[k]? = some a → j < n → arrays.flatten[k * n + j]? = a[j]?
  | [], _, k, j, a, h, _ => by cases h
  | b :: arrays, hl, k, j, a, h, hj => by
    have hb := hl b List.mem_cons_self
    rw [List.flatten_cons]
    cases k with
    | zero =>
      rw [List.getElem?_cons_zero] at h
      cases h
      rw [Nat.zero_mul, Nat.zero_add, List.getElem?_append_left (by omega)]
    | succ k =>
      rw [List.getElem?_cons_succ] at h
      rw [List.getElem?_append_right (by rw [hb, Nat.add_mul]; omega), hb,
        show (k + 1) * n + j - n = k * n + j by rw [Nat.add_mul]; omega]
      exact flatten_get (fun x hx => hl x (List.mem_cons_of_mem _ hx)) h hj

theorem flatten_len {V : Type} {n : Nat} : ∀ {arrays : List (List V)}, (∀ a ∈ arrays, a.length = n) →
    arrays.flatten.length = arrays.length * n
  | [], _ => by simp
  | b :: arrays, hl => by
    rw [List.flatten_cons, List.length_append, hl b List.mem_cons_self,
      flatten_len fun x hx => hl x (List.mem_cons_of_mem _ hx), List.length_cons, Nat.add_mul]
    omega

/-- What is kept of an axis: everything but its name. -/
def core (a : Axis) : Rat × Rat × Nat × Option Text := (a.offset, a.scale, a.size, a.units)

def dimCore (f8 : Nat → Rat) (d : Dim) : Rat × Rat × Nat × Option Text := (f8 d.offset, f8 d.delta, d.size, unitsOf d)

def keep (kind : Kind) (d : Dim) : Bool := decide (kind = .spectrum ∨ d.size ≠ 1)

theorem dimFor_lt {order : Order} {n i : Nat} (h : i < n) : dimFor order n i < n := by
  unfold dimFor
  cases order <;> dsimp only <;> omega

theorem navAxes_ok (f8 : Nat → Rat) (kind : Kind) (order : Order) (dims : List Dim) : ∀ (is : List Nat) (names : List Text),
    (∀ i ∈ is, i < dims.length) →
    (is.countP fun i => (dims[dimFor order dims.length i]?.map unitsOf) = some (some tMeters)) ≤ names.length →
    ∃ r, navAxes f8 kind order dims is names = .ok r ∧
      (r.filterMap id).map core = (is.filter fun i => (dims[i]?.map (keep kind)).getD false).filterMap
        (fun i => dims[dimFor order dims.length i]?.map (dimCore f8)) ∧
      (∀ a ∈ r.filterMap id, a.navigate = true) ∧
      (∀ i, is = [i] → (dims[i]?.map (keep kind)) = some true → ∃ a, r = [some a])
  | [], names, _, _ => ⟨[], rfl, rfl, by simp, by simp⟩
  | i :: is, names, hi, hc => by
    have h1 := hi i List.mem_cons_self
    have h2 := dimFor_lt (order := order) h1
    rw [List.countP_cons] at hc
    rw [navAxes, List.getElem?_eq_getElem h1, List.getElem?_eq_getElem h2]
    rw [List.getElem?_eq_getElem h2] at hc
    dsimp only
    simp only [Option.map_some] at hc
    have hmem : ∀ i ∈ is, i < dims.length := fun j hj => hi j (List.mem_cons_of_mem _ hj)
    by_cases hk : kind = .spectrum ∨ dims[i].size ≠ 1
    · rw [if_pos hk]
      have hkb : keep kind dims[i] = true := by unfold keep; simpa using hk
      have hfil : ((i :: is).filter fun i => (dims[i]?.map (keep kind)).getD false) =
          i :: is.filter fun i => (dims[i]?.map (keep kind)).getD false := by
        rw [List.filter_cons, List.getElem?_eq_getElem h1]
        simp only [Option.map_some, Option.getD_some, hkb, if_true]
      by_cases hu : unitsOf dims[dimFor order dims.length i] = some tMeters
      · rw [if_pos hu]
        have hcu : decide (some (unitsOf dims[dimFor order dims.length i]) = some (some tMeters)) = true := by simp [hu]
        rw [if_pos hcu] at hc
        have hne : names ≠ [] := by
          intro he
          rw [he] at hc
          simp at hc
        rw [List.getLast?_eq_some_getLast hne]
        dsimp only
        obtain ⟨r, e1, e2, e3, -⟩ := navAxes_ok f8 kind order dims is names.dropLast hmem (by
          rw [List.length_dropLast]; omega)
        rw [e1]
        refine ⟨_, rfl, ?_, ?_, ?_⟩
        · rw [hfil, List.filterMap_cons, List.filterMap_cons, List.getElem?_eq_getElem h2]
          simp only [id, Option.map_some, List.map_cons]
          rw [← e2]
          simp only [id, core, dimCore, hu]
        · intro a ha
          rw [List.filterMap_cons] at ha
          simp only [id] at ha
          rw [List.mem_cons] at ha
          rcases ha with rfl | ha
          · rfl
          · exact e3 a ha
        · intro j hj _
          cases hj
          rw [navAxes] at e1
          cases e1
          exact ⟨_, rfl⟩
      · rw [if_neg hu]
        obtain ⟨r, e1, e2, e3, -⟩ := navAxes_ok f8 kind order dims is names hmem (by omega)
        rw [e1]
        refine ⟨_, rfl, ?_, ?_, ?_⟩
        · rw [hfil, List.filterMap_cons, List.filterMap_cons, List.getElem?_eq_getElem h2]
          simp only [id, Option.map_some, List.map_cons]
          rw [← e2]
          simp only [id, core, dimCore]
        · intro a ha
          rw [List.filterMap_cons] at ha
          simp only [id] at ha
          rw [List.mem_cons] at ha
          rcases ha with rfl | ha
          · rfl
          · exact e3 a ha
        · intro j hj _
          cases hj
          rw [navAxes] at e1
          cases e1
          exact ⟨_, rfl⟩
    · rw [if_neg hk]
      have hkb : keep kind dims[i] = false := by unfold keep; simpa using hk
      obtain ⟨r, e1, e2, e3, -⟩ := navAxes_ok f8 kind order dims is names hmem (by omega)
      rw [e1]
      refine ⟨_, rfl, ?_, ?_, ?_⟩
      · rw [List.filter_cons, List.getElem?_eq_getElem h1]
        simp only [Option.map_some, Option.getD_some, hkb]
        rw [List.filterMap_cons]
        simp only [id]
        exact e2
      · intro a ha
        rw [List.filterMap_cons] at ha
        simp only [id] at ha
        exact e3 a ha
      · intro j hj hkj
        cases hj
        rw [List.getElem?_eq_getElem h1, Option.map_some, hkb] at hkj
        cases hkj

/-- The dimensions in the order of the axes. -/
def scanned (kind : Kind) (order : Order) (dims : List Dim) : List Dim :=
  (match order with
    | .c => dims
    | .f => dims.reverse).filter (keep kind)

theorem filterMap_range_filter {α β : Type} (l : List α) (p : α → Bool) (g : α → β) :
    ((List.range l.length).filter fun i => (l[i]?.map p).getD false).filterMap (fun i => l[i]?.map g) =
      (l.filter p).map g := by
  rw [List.filterMap_filter]
  have key : ∀ (m pre : List α), (List.range' pre.length m.length).filterMap
      (fun i => if ((pre ++ m)[i]?.map p).getD false = true then (pre ++ m)[i]?.map g else none) = (m.filter p).map g := by
    intro m
    induction m with
    | nil => intro pre; rfl
    | cons a m ih =>
      intro pre
      have ih := ih (pre ++ [a])
      rw [List.append_assoc, List.singleton_append, List.length_append, List.length_singleton] at ih
      rw [List.length_cons, List.range'_succ, List.filterMap_cons, ih, List.filter_cons,
        List.getElem?_append_right (Nat.le_refl _), Nat.sub_self, List.getElem?_cons_zero]
      simp only [Option.map_some, Option.getD_some]
      cases p a <;> rfl
  have := key l []
  rw [List.length_nil, ← List.range_eq_range'] at this
  exact this

theorem scanned_spec {f8 : Nat → Rat} {kind : Kind} {order : Order} {dims : List Dim}
    (h : order = .c ∨ ∀ d ∈ dims, keep kind d = true) :
    ((List.range dims.length).filter fun i => (dims[i]?.map (keep kind)).getD false).filterMap
        (fun i => dims[dimFor order dims.length i]?.map (dimCore f8)) =
      (scanned kind order dims).map (dimCore f8) := by
  cases order with
  | c => exact filterMap_range_filter dims (keep kind) (dimCore f8)
  | f =>
    have hk : ∀ d ∈ dims, keep kind d = true := by
      rcases h with h | h
      · cases h
      · exact h
    unfold scanned
    dsimp only
    have h1 : dims.reverse.filter (keep kind) = dims.reverse := by
      rw [List.filter_eq_self]
      intro d hd
      exact hk d (List.mem_reverse.1 hd)
    have h2 : ((List.range dims.length).filter fun i => (dims[i]?.map (keep kind)).getD false) =
        List.range dims.length := by
      rw [List.filter_eq_self]
      intro i hi
      rw [List.mem_range] at hi
      rw [List.getElem?_eq_getElem hi]
      exact hk _ (List.getElem_mem hi)
    rw [h1, h2]
    refine List.ext_getElem? ?_
    intro i
    have h3 : (List.range dims.length).filterMap (fun i => dims[dimFor .f dims.length i]?.map (dimCore f8)) =
        (List.range dims.length).map fun i => dimCore f8 (dims.reverse.getD i ⟨0, 0, 0, 0, []⟩) := by
      rw [← List.filterMap_eq_map]
      have : ∀ l : List Nat, (∀ i ∈ l, i < dims.length) →
          l.filterMap (fun i => dims[dimFor .f dims.length i]?.map (dimCore f8)) =
          l.filterMap (some ∘ fun i => dimCore f8 (dims.reverse.getD i ⟨0, 0, 0, 0, []⟩)) := by
        intro l
        induction l with
        | nil => intro _; rfl
        | cons j l ih =>
          intro hl
          have hj := hl j List.mem_cons_self
          have e : dims[dimFor .f dims.length j]? = some (dims.reverse.getD j ⟨0, 0, 0, 0, []⟩) := by
            unfold dimFor
            dsimp only
            rw [List.getD_eq_getElem?_getD, List.getElem?_reverse hj, List.getElem?_eq_getElem (by omega)]
            rfl
          rw [List.filterMap_cons, List.filterMap_cons, ih fun x hx => hl x (List.mem_cons_of_mem _ hx), e]
          rfl
      exact this _ fun i hi => List.mem_range.1 hi
    rw [h3, List.getElem?_map, List.getElem?_map]
    by_cases hi : i < dims.length
    · rw [List.getElem?_range hi, List.getElem?_eq_getElem (by rw [List.length_reverse]; exact hi)]
      simp only [Option.map_some]
      rw [List.getD_eq_getElem?_getD, List.getElem?_eq_getElem (by rw [List.length_reverse]; exact hi)]
      rfl
    · rw [List.getElem?_eq_none (by rw [List.length_range]; omega),
        List.getElem?_eq_none (by rw [List.length_reverse]; omega)]
      rfl

/-- The data before the rows are flipped. -/
theorem fillData_ok {V : Type} (fill : V) {nav sig : List Nat} {ndim valid : Nat} {arrays : List (List V)} {onlyValid : Bool}
    (hv : arrays.length = valid) (ha : ∀ a ∈ arrays, a.length = size sig) (hle : valid ≤ size nav)
    (hs : size nav = valid ∨ ¬ (ndim = 1 ∧ onlyValid = true)) :
    fillData fill (nav ++ sig) ndim valid (size sig) arrays.flatten onlyValid =
      .ok (nav ++ sig, arrays.flatten ++ List.replicate (size (nav ++ sig) - arrays.flatten.length) fill) := by
  have hl : arrays.flatten.length = valid * size sig := by rw [flatten_len ha, hv]
  have hsz : size (nav ++ sig) = size nav * size sig := size_append nav sig
  have hge : valid * size sig ≤ size nav * size sig := Nat.mul_le_mul_right _ hle
  unfold fillData
  dsimp only
  by_cases he : size (nav ++ sig) ≠ valid * size sig
  · rw [if_pos he]
    have hns : ¬ (ndim = 1 ∧ onlyValid = true) := by
      rcases hs with hs | hs
      · exfalso
        apply he
        rw [hsz, hs]
      · exact hs
    rw [if_neg hns, if_neg (by omega)]
    dsimp only
    rw [if_pos]
    rw [List.length_append, List.length_replicate]
    omega
  · rw [if_neg he]
    dsimp only
    have he : size (nav ++ sig) = valid * size sig := by omega
    rw [if_pos (by omega), he, hl, Nat.sub_self, List.replicate_zero, List.append_nil]

theorem data_get {V : Type} (fill : V) {nav sig : List Nat} {arrays : List (List V)}
    (ha : ∀ a ∈ arrays, a.length = size sig) (hle : arrays.length ≤ size nav) {I J : List Nat} (hI : InBounds nav I)
    (hJ : InBounds sig J) :
    (∀ a, arrays[flatIndex nav I]? = some a →
      (arrays.flatten ++ List.replicate (size (nav ++ sig) - arrays.flatten.length) fill)[flatIndex (nav ++ sig) (I ++ J)]? =
        a[flatIndex sig J]?) ∧
    (arrays[flatIndex nav I]? = none →
      (arrays.flatten ++ List.replicate (size (nav ++ sig) - arrays.flatten.length) fill)[flatIndex (nav ++ sig) (I ++ J)]? =
        some fill) := by
  have hl := flatten_len ha
  have hj := flatIndex_lt hJ
  have hi := flatIndex_lt hI
  rw [flatIndex_append sig J hI]
  have hsz : size (nav ++ sig) = size nav * size sig := size_append nav sig
  constructor
  · intro a h
    have hk : flatIndex nav I < arrays.length := (List.getElem?_eq_some_iff.1 h).1
    have hb : flatIndex nav I * size sig + flatIndex sig J < arrays.length * size sig := by
      have := Nat.mul_le_mul_right (size sig) hk
      rw [Nat.succ_mul] at this
      omega
    rw [List.getElem?_append_left (by omega), flatten_get ha h hj]
  · intro h
    have hk : arrays.length ≤ flatIndex nav I := List.getElem?_eq_none_iff.1 h
    have h1 := Nat.mul_le_mul_right (size sig) hk
    have h2 := Nat.mul_le_mul_right (size sig) hi
    rw [Nat.succ_mul] at h2
    rw [List.getElem?_append_right (by omega), List.getElem?_replicate, if_pos]
    omega

theorem flipRows_append (Y X y x : Nat) : ∀ {nav I : List Nat}, InBounds nav I →
    flipRows (nav ++ [Y, X]) (I ++ [y, x]) = I ++ [Y - 1 - y, x]
  | _, _, .nil => rfl
  | n :: nav, i :: I, .cons h t => by
    have ih := flipRows_append Y X y x t
    cases nav with
    | nil =>
      cases t
      rfl
    | cons m nav =>
      cases nav with
      | nil => 
        rw [List.cons_append, List.cons_append, List.cons_append]
        rw [List.nil_append, flipRows, List.cons_append, ← ih]
        rfl
      | cons k nav =>
        rw [List.cons_append, List.cons_append, List.cons_append, List.cons_append, flipRows]
        rw [List.cons_append, ← ih]
        rfl

theorem intAt_of_holds {r : Bytes} {o v : Nat} (h : Holds r o 4 v) : intAt r o = v := by
  have h := (readLE_iff (by omega)).2 h
  unfold readLE at h
  split at h
  · cases h
  · exact Except.ok.inj h

end Verif.Tia
