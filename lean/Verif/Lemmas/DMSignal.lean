import Verif.Spec.DMSignal
import Mathlib.Tactic.Ring
import Mathlib.Data.List.Nodup
/-! Lemmas about the images of Digital Micrograph files. -/
namespace Verif.DMSignal

theorem okBind {α β : Type} {x : Py α} {f : α → Py β} {y : β} (h : (x >>= f) = .ok y) :
    ∃ a, x = .ok a ∧ f a = .ok y := by
  cases x with
  | error e => cases h
  | ok a => exact ⟨a, rfl, h⟩

theorem length_padded {im : Im} (h : im.cals.length ≤ im.dims.length) :
    (padded im).length = im.dims.length := by
  simp [padded, shape]; omega

theorem padded_get {im : Im} (h : im.cals.length ≤ im.dims.length) {k : Nat} (hk : k < im.dims.length) :
    (padded im)[im.dims.length - 1 - k]? = some ((im.cals[k]?).getD ⟨0, 1, []⟩) := by
  unfold padded
  have hl : (im.cals ++ List.replicate ((shape im).length - im.cals.length) (Cal.mk 0 1 [])).length =
      im.dims.length := by simp [shape]; omega
  rw [List.getElem?_reverse (by omega), hl]
  have : im.dims.length - 1 - (im.dims.length - 1 - k) = k := by omega
  rw [this]
  by_cases hc : k < im.cals.length
  · rw [List.getElem?_append_left hc, List.getElem?_eq_getElem hc]; rfl
  · rw [List.getElem?_append_right (by omega), List.getElem?_eq_none (by omega : im.cals.length ≤ k)]
    rw [List.getElem?_replicate]
    simp [shape]; omega

theorem zipAxes_get : ∀ (i j : Nat) (ns : List (Option Text)) (ss : List Nat) (cs os : List Rat)
    (us : List Text) (vs : List Bool) n s c o u v, ns[i]? = some n → ss[i]? = some s → cs[i]? = some c →
    os[i]? = some o → us[i]? = some u → vs[i]? = some v →
    (zipAxes j ns ss cs os us vs)[i]? = some ⟨n, s, j + i, c, o, u, v⟩
  | 0, j, ns, ss, cs, os, us, vs, n, s, c, o, u, v, h1, h2, h3, h4, h5, h6 => by
    cases ns <;> cases ss <;> cases cs <;> cases os <;> cases us <;> cases vs <;> simp_all [zipAxes]
  | i + 1, j, ns, ss, cs, os, us, vs, n, s, c, o, u, v, h1, h2, h3, h4, h5, h6 => by
    cases ns <;> cases ss <;> cases cs <;> cases os <;> cases us <;> cases vs <;> simp at h1 h2 h3 h4 h5 h6
    rename_i a ns b ss c' cs d os e us f vs
    rw [zipAxes, List.getElem?_cons_succ, zipAxes_get i (j + 1) ns ss cs os us vs n s c o u v h1 h2 h3 h4 h5 h6,
      Nat.add_assoc, Nat.add_comm 1 i]

theorem length_zipAxes : ∀ (m j : Nat) (ns : List (Option Text)) (ss : List Nat) (cs os : List Rat)
    (us : List Text) (vs : List Bool), ns.length = m → ss.length = m → cs.length = m → os.length = m →
    us.length = m → vs.length = m → (zipAxes j ns ss cs os us vs).length = m
  | 0, j, ns, ss, cs, os, us, vs, h1, h2, h3, h4, h5, h6 => by
    rw [List.length_eq_zero_iff] at h1
    subst h1; rfl
  | m + 1, j, ns, ss, cs, os, us, vs, h1, h2, h3, h4, h5, h6 => by
    cases ns <;> cases ss <;> cases cs <;> cases os <;> cases us <;> cases vs <;> simp at h1 h2 h3 h4 h5 h6
    rw [zipAxes, List.length_cons, length_zipAxes m (j + 1) _ _ _ _ _ _ h1 h2 h3 h4 h5 h6]

theorem length_foldl_set : ∀ (ps : List (Nat × Text)) (ns : List (Option Text)),
    (ps.foldl (fun ns p => ns.set p.1 (some p.2)) ns).length = ns.length
  | [], _ => rfl
  | p :: ps, ns => by rw [List.foldl_cons, length_foldl_set ps]; simp

theorem foldl_set_other : ∀ (ps : List (Nat × Text)) (ns : List (Option Text)) (i : Nat),
    (∀ p ∈ ps, p.1 ≠ i) → (ps.foldl (fun ns p => ns.set p.1 (some p.2)) ns)[i]? = ns[i]?
  | [], _, _, _ => rfl
  | p :: ps, ns, i, h => by
    rw [List.foldl_cons, foldl_set_other ps _ i fun q hq => h q (List.mem_cons_of_mem _ hq),
      List.getElem?_set_ne (h p List.mem_cons_self)]

theorem foldl_set_mem : ∀ (ps : List (Nat × Text)) (ns : List (Option Text)) (i : Nat) (t : Text),
    (ps.map (·.1)).Nodup → (i, t) ∈ ps → i < ns.length →
    (ps.foldl (fun ns p => ns.set p.1 (some p.2)) ns)[i]? = some (some t)
  | [], _, _, _, _, h, _ => by cases h
  | p :: ps, ns, i, t, nd, h, hi => by
    rw [List.map_cons, List.nodup_cons] at nd
    rw [List.foldl_cons]
    rcases List.mem_cons.1 h with h | h
    · subst h
      rw [foldl_set_other ps _ i fun q hq e => nd.1 (List.mem_map.2 ⟨q, hq, e⟩)]
      simp [hi]
    · exact foldl_set_mem ps _ i t nd.2 h (by simpa using hi)

theorem zip_fst_nodup {α β : Type} : ∀ (l : List α) (m : List β), l.Nodup → ((l.zip m).map (·.1)).Nodup
  | [], _, _ => by simp
  | _ :: _, [], _ => by simp
  | a :: l, b :: m, h => by
    rw [List.nodup_cons] at h
    rw [List.zip_cons_cons, List.map_cons, List.nodup_cons]
    refine ⟨fun hm => ?_, zip_fst_nodup l m h.2⟩
    obtain ⟨p, hp, e⟩ := List.mem_map.1 hm
    have hp' := (List.of_mem_zip (show (p.1, p.2) ∈ _ from hp)).1
    rw [show p.1 = a from e] at hp'
    exact h.1 hp'

/-- The name at the position that is the `k`-th from the end of the indices. -/
theorem setNames_get {indices : List Nat} {ns : List (Option Text)} (nd : indices.Nodup) {k i : Nat}
    (hk : indices.reverse[k]? = some i) (hi : i < ns.length) (hn : ns[i]? = some none) :
    (setNames indices ns)[i]? = some (letter k) := by
  unfold setNames
  have nd' : indices.reverse.Nodup := (List.reverse_perm indices).nodup_iff.2 nd
  by_cases h3 : k < 3
  · have : ∃ t, letter k = some t ∧ (["x".toList, "y".toList, "z".toList] : List Text)[k]? = some t := by
      match k, h3 with
      | 0, _ => exact ⟨_, rfl, rfl⟩
      | 1, _ => exact ⟨_, rfl, rfl⟩
      | 2, _ => exact ⟨_, rfl, rfl⟩
    obtain ⟨t, e1, e2⟩ := this
    rw [e1]
    refine foldl_set_mem _ _ _ _ (zip_fst_nodup _ _ nd') ?_ hi
    rw [List.mem_iff_getElem?]
    exact ⟨k, by rw [List.getElem?_zip_eq_some]; exact ⟨hk, e2⟩⟩
  · rw [foldl_set_other]
    · rw [hn]
      match k, h3 with
      | k + 3, _ => rfl
    · intro p hp e
      obtain ⟨m, hm⟩ := List.mem_iff_getElem?.1 hp
      rw [List.getElem?_zip_eq_some] at hm
      have hmk : m = k := by
        rw [e] at hm
        have l1 := (List.getElem?_eq_some_iff.1 hm.1)
        have l2 := (List.getElem?_eq_some_iff.1 hk)
        obtain ⟨a1, b1⟩ := l1
        obtain ⟨a2, b2⟩ := l2
        exact (List.Nodup.getElem_inj_iff nd').1 (b1.trans b2.symm)
      subst hmk
      have := (List.getElem?_eq_some_iff.1 hm.2).1
      simp at this
      omega

theorem length_setNames (indices : List Nat) (ns : List (Option Text)) :
    (setNames indices ns).length = ns.length := length_foldl_set _ _

/-- Writing positions that are not there leaves the name alone. -/
theorem setNames_other {indices : List Nat} {ns : List (Option Text)} {i : Nat} (h : i ∉ indices) :
    (setNames indices ns)[i]? = ns[i]? := by
  unfold setNames
  refine foldl_set_other _ _ _ fun p hp e => h ?_
  have := (List.of_mem_zip (show (p.1, p.2) ∈ _ from hp)).1
  rw [List.mem_reverse] at this
  exact e ▸ this

theorem range_reverse_get {n k : Nat} (h : k < n) : (List.range n).reverse[k]? = some (n - 1 - k) := by
  rw [List.getElem?_reverse (by simpa using h), List.length_range, List.getElem?_range (by omega)]

theorem nodup_erase (n i : Nat) : ((List.range n).eraseIdx i).Nodup :=
  List.Nodup.eraseIdx _ List.nodup_range

theorem erase_reverse_get {n i k : Nat} (hi : i < n) (hk : k < n - 1) :
    ((List.range n).eraseIdx i).reverse[k]? =
      some (if n - 2 - k < i then n - 2 - k else n - 1 - k) := by
  have hl : ((List.range n).eraseIdx i).length = n - 1 := by
    rw [List.length_eraseIdx]; simp [hi]
  rw [List.getElem?_reverse (by omega), hl, List.getElem?_eraseIdx]
  have e : n - 1 - 1 - k = n - 2 - k := by omega
  rw [e]
  split
  · rw [List.getElem?_range (by omega)]
  · rw [List.getElem?_range (by omega)]
    congr 1
    omega

theorem notMem_erase (n i : Nat) : i ∉ (List.range n).eraseIdx i := by
  intro h
  rw [List.mem_eraseIdx_iff_getElem?] at h
  obtain ⟨j, hj, e⟩ := h
  have hl := (List.getElem?_eq_some_iff.1 e)
  obtain ⟨a, b⟩ := hl
  simp at b
  omega

theorem indexOf_spec {u : Text} : ∀ {l : List Text} {i : Nat}, indexOf u l = some i →
    l[i]? = some u ∧ ∀ j, j < i → l[j]? ≠ some u
  | [], i, h => by cases h
  | v :: vs, i, h => by
    unfold indexOf at h
    split at h
    · rename_i e
      injection h with h
      subst h
      exact ⟨by simp [e], fun j hj => by omega⟩
    · rename_i e
      cases hv : indexOf u vs with
      | none => rw [hv] at h; cases h
      | some m =>
        rw [hv] at h
        injection h with h
        dsimp only at h
        subst h
        have := indexOf_spec hv
        refine ⟨by simpa using this.1, fun j hj => ?_⟩
        cases j with
        | zero => simpa using e
        | succ j => simpa using this.2 j (by omega)

theorem indexOf_none {u : Text} : ∀ {l : List Text}, indexOf u l = none → ∀ j : Nat, l[j]? ≠ some u
  | [], _, j => by simp
  | v :: vs, h, j => by
    unfold indexOf at h
    split at h
    · cases h
    · rename_i e
      cases hv : indexOf u vs with
      | some m => rw [hv] at h; cases h
      | none =>
        cases j with
        | zero => simpa using e
        | succ j => simpa using indexOf_none hv j

/-! Stored values -/

theorem fromFile_get (w : Nat) : ∀ (n : Nat) (bs : List UInt8), n * w ≤ bs.length →
    (fromFile w n bs).length = n ∧ ∀ i, i < n → (fromFile w n bs)[i]? = some ((bs.drop (i * w)).take w)
  | 0, _, _ => ⟨rfl, fun i h => by omega⟩
  | n + 1, bs, h => by
    have hw : w ≤ bs.length := by
      rw [Nat.add_mul] at h; omega
    have ih := fromFile_get w n (bs.drop w) (by rw [List.length_drop]; rw [Nat.add_mul] at h; omega)
    unfold fromFile
    rw [if_neg (by omega)]
    refine ⟨by simp [ih.1], fun i hi => ?_⟩
    cases i with
    | zero => simp
    | succ i =>
      rw [List.getElem?_cons_succ, ih.2 i (by omega), List.drop_drop]
      congr 3
      ring

theorem length_fromFile_le (w : Nat) : ∀ (n : Nat) (bs : List UInt8),
    (fromFile w n bs).length * w ≤ bs.length
  | 0, bs => by simp [fromFile]
  | n + 1, bs => by
    unfold fromFile
    split
    · simp
    · have := length_fromFile_le w n (bs.drop w)
      rw [List.length_drop] at this
      rw [List.length_cons, Nat.add_mul]
      omega

theorem length_fromFile_count (w : Nat) : ∀ (n : Nat) (bs : List UInt8), (fromFile w n bs).length ≤ n
  | 0, bs => by simp [fromFile]
  | n + 1, bs => by
    unfold fromFile
    split
    · simp
    · have := length_fromFile_count w n (bs.drop w)
      rw [List.length_cons]
      omega

theorem size_snoc : ∀ (s : List Nat) (n : Nat), size (s ++ [n]) = size s * n
  | [], n => by simp [size]
  | a :: s, n => by rw [List.cons_append, size, size, size_snoc s n, Nat.mul_assoc]

theorem size_reverse : ∀ s : List Nat, size s.reverse = size s
  | [] => rfl
  | a :: s => by rw [List.reverse_cons, size_snoc, size_reverse s, size, Nat.mul_comm]

theorem flatIndex_snoc : ∀ {s i : List Nat} (n j : Nat), InBounds s i →
    flatIndex (s ++ [n]) (i ++ [j]) = flatIndex s i * n + j
  | _, _, n, j, .nil => by simp [flatIndex, size]
  | a :: s, b :: i, n, j, .cons h t => by
    rw [List.cons_append, List.cons_append, flatIndex, flatIndex, flatIndex_snoc n j t, size_snoc]
    ring

theorem inBounds_rev : ∀ {s i : List Nat}, InBounds s i → InBounds s.reverse i.reverse := by
  intro s i h
  exact List.rel_reverse h

theorem flatIndex_reverse : ∀ {dims c : List Nat}, InBounds dims c →
    flatIndex dims.reverse c.reverse = place dims c
  | _, _, .nil => rfl
  | n :: ns, i :: is, .cons h t => by
    rw [List.reverse_cons, List.reverse_cons, flatIndex_snoc n i (inBounds_rev t), flatIndex_reverse t, place]
    ring

theorem place_lt {dims c : List Nat} (h : InBounds dims c) : place dims c < size dims := by
  rw [← flatIndex_reverse h, ← size_reverse]
  exact flatIndex_lt (inBounds_rev h)

end Verif.DMSignal
