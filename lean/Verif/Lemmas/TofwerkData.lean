import Verif.Lemmas.Tofwerk
/-! Lemmas for C60: columns of the peak data. -/
namespace Verif.Tofwerk
open Verif Verif.Spec.Tofwerk

theorem filterMap_congr' {α β : Type} {f g : α → Option β} : ∀ {l : List α}, (∀ a ∈ l, f a = g a) →
    l.filterMap f = l.filterMap g
  | [], _ => rfl
  | a :: l, h => by
    rw [List.filterMap_cons, List.filterMap_cons, h a List.mem_cons_self,
      filterMap_congr' fun b hb => h b (List.mem_cons_of_mem _ hb)]

theorem mapPy_ok {α β : Type} {f : α → Py β} {g : α → β} : ∀ {l : List α}, (∀ a ∈ l, f a = .ok (g a)) →
    mapPy f l = .ok (l.map g)
  | [], _ => rfl
  | a :: l, h => by
    rw [mapPy, h a List.mem_cons_self]
    dsimp only
    rw [mapPy_ok fun b hb => h b (List.mem_cons_of_mem _ hb)]
    rfl

theorem takeAll_pick {β : Type} {px : List β} {cols : List Nat} (h : ∀ c ∈ cols, c < px.length) :
    takeAll px cols = .ok (pick cols px) := takeAll_exists h

theorem columns_ok {β : Type} {s : Slice β} {cols : List Nat}
    (h : ∀ row ∈ s, ∀ px ∈ row, ∀ c ∈ cols, c < List.length px) : columns s cols = .ok (pickAll cols s) := by
  unfold columns pickAll
  refine mapPy_ok ?_
  intro row hr
  refine mapPy_ok ?_
  intro px hp
  exact takeAll_pick (h row hr px hp)

theorem h5Columns_ok {β : Type} {s : Slice β} {cols : List Nat} (ha : cols.Pairwise (· < ·))
    (h : ∀ row ∈ s, ∀ px ∈ row, ∀ c ∈ cols, c < List.length px) : h5Columns s cols = .ok (pickAll cols s) := by
  unfold h5Columns
  rw [if_pos ha]
  exact columns_ok h

theorem pick_length {β : Type} {cols : List Nat} {px : List β} (h : ∀ c ∈ cols, c < px.length) :
    (pick cols px).length = cols.length := length_of_takeAll (takeAll_pick h)

theorem pick_get {β : Type} {cols : List Nat} {px : List β} (h : ∀ c ∈ cols, c < px.length) {i c : Nat}
    (hc : cols[i]? = some c) : (pick cols px)[i]? = px[c]? := map_of_takeAll (takeAll_pick h) hc

theorem pick_pick {β : Type} {cols : List Nat} {px : List β} (h : ∀ c ∈ cols, c < px.length) (σ : List Nat) :
    pick σ (pick cols px) = pick (pick σ cols) px := by
  unfold pick
  rw [List.filterMap_filterMap]
  refine filterMap_congr' ?_
  intro i _
  by_cases hi : i < cols.length
  · rw [List.getElem?_eq_getElem hi, Option.bind_some]
    exact pick_get h (List.getElem?_eq_getElem hi)
  · have : (pick cols px).length ≤ i := by rw [pick_length h]; omega
    rw [List.getElem?_eq_none (show cols.length ≤ i by omega)]
    exact List.getElem?_eq_none this

theorem mem_pick {β : Type} {cols : List Nat} {px : List β} {x : β} (h : x ∈ pick cols px) : x ∈ px := by
  unfold pick at h
  rw [List.mem_filterMap] at h
  obtain ⟨c, _, hc⟩ := h
  exact List.mem_of_getElem? hc

theorem pick_map {α β : Type} (f : α → β) (σ : List Nat) (l : List α) : pick σ (l.map f) = (pick σ l).map f := by
  unfold pick
  rw [List.map_filterMap]
  refine filterMap_congr' ?_
  intro i _
  rw [List.getElem?_map]

theorem twice_ok {β : Type} {s : Slice β} {cols σ : List Nat} (ha : cols.Pairwise (· < ·))
    (h : ∀ row ∈ s, ∀ px ∈ row, ∀ c ∈ cols, c < List.length px) (hσ : ∀ k ∈ σ, k < cols.length) :
    twice s cols σ = .ok (pickAll (pick σ cols) s) := by
  unfold twice
  rw [h5Columns_ok ha h]
  dsimp only
  rw [columns_ok]
  · congr 1
    unfold pickAll
    rw [List.map_map]
    refine List.map_congr_left ?_
    intro row hr
    dsimp only [Function.comp_apply]
    rw [List.map_map]
    refine List.map_congr_left ?_
    intro px hp
    exact pick_pick (h row hr px hp) σ
  · intro row hr px hp c hc
    unfold pickAll at hr
    rw [List.mem_map] at hr
    obtain ⟨row', hr', rfl⟩ := hr
    rw [List.mem_map] at hp
    obtain ⟨px', hp', rfl⟩ := hp
    rw [pick_length (h row' hr' px' hp')]
    exact hσ c hc

/-! ### Selected columns -/

theorem mem_origIdx {f : Peak → Bool} : ∀ {t : List Peak} {i c : Nat},
    c ∈ origIdx f i t ↔ ∃ k p, c = i + k ∧ t[k]? = some p ∧ f p = true
  | [], i, c => by
    constructor
    · intro h
      cases h
    · rintro ⟨k, p, -, h, -⟩
      cases h
  | q :: t, i, c => by
    have ih := mem_origIdx (f := f) (t := t) (i := i + 1) (c := c)
    have key : c ∈ origIdx f i (q :: t) ↔ (c = i ∧ f q = true) ∨ c ∈ origIdx f (i + 1) t := by
      rw [origIdx]
      by_cases hq : f q = true
      · rw [if_pos hq, List.mem_cons]
        simp [hq]
      · rw [if_neg hq]
        simp [hq]
    rw [key, ih]
    constructor
    · rintro (⟨rfl, h⟩ | ⟨k, p, rfl, h1, h2⟩)
      · exact ⟨0, q, rfl, rfl, h⟩
      · exact ⟨k + 1, p, by omega, by rw [List.getElem?_cons_succ]; exact h1, h2⟩
    · rintro ⟨k, p, rfl, h1, h2⟩
      cases k with
      | zero =>
        rw [List.getElem?_cons_zero] at h1
        cases h1
        exact .inl ⟨rfl, h2⟩
      | succ k =>
        rw [List.getElem?_cons_succ] at h1
        exact .inr ⟨k, p, by omega, h1, h2⟩

theorem origIdx_sorted (f : Peak → Bool) : ∀ (t : List Peak) (i : Nat), (origIdx f i t).Pairwise (· < ·)
  | [], _ => List.Pairwise.nil
  | q :: t, i => by
    rw [origIdx]
    split
    · rw [List.pairwise_cons]
      refine ⟨?_, origIdx_sorted f t (i + 1)⟩
      intro c hc
      obtain ⟨k, p, rfl, -⟩ := mem_origIdx.1 hc
      omega
    · exact origIdx_sorted f t (i + 1)

/-- The mass of a column. -/
def massOf (table : List Peak) (c : Nat) : Rat := (table[c]?.map Peak.mass).getD 0

theorem origIdx_mass (f : Peak → Bool) : ∀ (t pre : List Peak),
    (t.filter f).map Peak.mass = (origIdx f pre.length t).map (massOf (pre ++ t))
  | [], _ => rfl
  | q :: t, pre => by
    have ih := origIdx_mass f t (pre ++ [q])
    rw [List.append_assoc, List.singleton_append, List.length_append, List.length_singleton] at ih
    rw [origIdx, List.filter_cons]
    by_cases hq : f q = true
    · rw [if_pos hq, if_pos hq, List.map_cons, List.map_cons, ih]
      congr 1
      unfold massOf
      rw [List.getElem?_append_right (Nat.le_refl _), Nat.sub_self]
      rfl
    · rw [if_neg hq, if_neg hq, ih]

theorem masked_map {α β γ : Type} (g : α → β) (h : α → Bool) (k : γ) : ∀ l : List α,
    masked (l.map g) (l.map h) = (l.filter h).map g
  | [] => rfl
  | a :: l => by
    rw [List.map_cons, List.map_cons, masked, masked_map g h k l, List.filter_cons]
    by_cases ha : h a = true
    · rw [if_pos ha, if_pos ha]; rfl
    · rw [if_neg ha, if_neg ha]

theorem inRange_iff {mz : Option (Rat × Rat)} {m : Rat} : inRange mz m = true ↔ Within mz m := by
  unfold inRange Within
  cases mz with
  | none => simp
  | some r =>
    obtain ⟨a, b⟩ := r
    dsimp only
    rw [Bool.and_eq_true, decide_eq_true_iff, decide_eq_true_iff]
    constructor
    · intro h a' b' e
      cases e
      exact h
    · intro h
      exact h a b rfl

theorem isNominal_iff {p : Peak} : isNominal p = true ↔ Nominal p := by
  unfold isNominal Nominal
  rw [List.isPrefixOf_iff_prefix]
  constructor
  · rintro ⟨r, h⟩
    exact ⟨r, h.symm⟩
  · rintro ⟨r, h⟩
    exact ⟨r, h.symm⟩

/-- The filtered columns are the requested ones. -/
theorem columns_spec {f : Peak → Bool} {kind : Peak → Prop} (hf : ∀ p, f p = true ↔ kind p) {mz : Option (Rat × Rat)}
    {table : List Peak} {sel : List Nat} (hs : sel.Perm (origIdx f 0 table)) :
    Columns kind mz table (sel.filter fun c => inRange mz (massOf table c)) := by
  have hnd : (origIdx f 0 table).Nodup := (origIdx_sorted f table 0).imp Nat.ne_of_lt
  refine ⟨(hs.nodup_iff.2 hnd).filter _, ?_⟩
  intro c
  rw [List.mem_filter, hs.mem_iff, mem_origIdx]
  constructor
  · rintro ⟨⟨k, p, hk, h1, h2⟩, h3⟩
    rw [Nat.zero_add] at hk
    subst hk
    refine ⟨p, h1, (hf p).1 h2, ?_⟩
    rw [massOf, h1] at h3
    exact inRange_iff.1 h3
  · rintro ⟨p, h1, h2, h3⟩
    refine ⟨⟨c, p, by omega, h1, (hf p).2 h2⟩, ?_⟩
    rw [massOf, h1]
    exact inRange_iff.2 h3

theorem masses_spec {f : Peak → Bool} {table : List Peak} {sel : List Nat} (hs : ∀ c ∈ sel, c ∈ origIdx f 0 table) :
    MassesOf table sel (sel.map (massOf table)) := by
  unfold MassesOf
  rw [List.map_map]
  refine List.map_congr_left ?_
  intro c hc
  obtain ⟨k, p, hk, h1, -⟩ := mem_origIdx.1 (hs c hc)
  rw [Nat.zero_add] at hk
  subst hk
  dsimp only [Function.comp_apply]
  rw [massOf, h1]
  rfl

theorem lt_of_mem_origIdx {f : Peak → Bool} {table : List Peak} {c : Nat} (h : c ∈ origIdx f 0 table) :
    c < table.length := by
  obtain ⟨k, p, hk, h1, -⟩ := mem_origIdx.1 h
  rw [Nat.zero_add] at hk
  subst hk
  exact (List.getElem?_eq_some_iff.1 h1).1

/-! ### Batches -/

theorem batches_state {β : Type} {f : Slice β → Py (Slice β)} {g : Slice β → Slice β} {slices : List (Slice β)}
    (hf : ∀ s ∈ slices, f s = .ok (g s)) {step : Nat} (hstep : 0 < step) : ∀ (m j : Nat),
    (∀ i, j ≤ i → i < j + m → i * step < slices.length) →
    batches f slices step ((List.range' j m).map (· * step))
      ((slices.take (j * step)).map (some ∘ g) ++ List.replicate (slices.length - j * step) none) =
    .ok ((slices.take ((j + m) * step)).map (some ∘ g) ++ List.replicate (slices.length - (j + m) * step) none)
  | 0, j, _ => rfl
  | m + 1, j, h => by
    rw [List.range'_succ, List.map_cons, batches]
    have hlt := h j (Nat.le_refl _) (by omega)
    rw [mapPy_ok (g := g) (by
      intro s hs
      exact hf s (List.mem_of_mem_drop (List.mem_of_mem_take hs)))]
    dsimp only
    have e := batches_state hf hstep m (j + 1) (fun i h1 h2 => h i (by omega) (by omega))
    rw [show j + (m + 1) = j + 1 + m by omega, ← e]
    congr 1
    have hlen : ((slices.take (j * step)).map (some ∘ g)).length = j * step := by
      rw [List.length_map, List.length_take]; omega
    rw [List.take_append_of_le_length (by omega), List.take_of_length_le (by omega), List.append_assoc]
    have hw : (j + 1) * step = j * step + step := by rw [Nat.add_mul, Nat.one_mul]
    rw [hw]
    have h1 : slices.take (j * step + step) = slices.take (j * step) ++ (slices.drop (j * step)).take step :=
      List.take_add
    rw [h1, List.map_append, List.append_assoc]
    congr 1
    have h2 : (slices.drop (j * step)).take (min (j * step + step) slices.length - j * step) =
        (slices.drop (j * step)).take step := by
      by_cases hc : j * step + step ≤ slices.length
      · rw [Nat.min_eq_left hc]; congr 1; omega
      · rw [Nat.min_eq_right (by omega), List.take_of_length_le (by rw [List.length_drop]),
          List.take_of_length_le (by rw [List.length_drop]; omega)]
    rw [h2, List.map_map]
    congr 1
    rw [List.drop_append, hlen, List.drop_eq_nil_of_le (by omega), List.nil_append, List.drop_replicate]
    congr 1
    omega

theorem batches_ok {β : Type} {f : Slice β → Py (Slice β)} {g : Slice β → Slice β} {slices : List (Slice β)}
    (hf : ∀ s ∈ slices, f s = .ok (g s)) {step : Nat} (hstep : 0 < step) :
    batches f slices step (starts slices.length step) (List.replicate slices.length none) =
      .ok (slices.map fun s => some (g s)) := by
  have e := batches_state hf hstep ((slices.length + step - 1) / step) 0 (by
    intro i _ h2
    rw [Nat.zero_add] at h2
    have h3 : (i + 1) * step ≤ slices.length + step - 1 := (Nat.le_div_iff_mul_le hstep).1 h2
    rw [Nat.add_mul, Nat.one_mul] at h3
    omega)
  rw [Nat.zero_mul, List.take_zero, List.map_nil, List.nil_append, Nat.sub_zero, Nat.zero_add] at e
  unfold starts
  rw [if_neg (by omega), List.range_eq_range', e]
  have h4 : slices.length ≤ (slices.length + step - 1) / step * step := by
    have h5 := Nat.lt_div_mul_add (a := slices.length + step - 1) hstep
    omega
  rw [List.take_of_length_le h4, Nat.sub_eq_zero_of_le h4, List.replicate_zero, List.append_nil]
  rfl

end Verif.Tofwerk
