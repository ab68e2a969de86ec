import Verif.Lemmas.DigitalsurfFile
namespace Verif.Lemmas.Digitalsurf
open Verif.Digitalsurf Verif.Spec.Digitalsurf Verif.BytesSpec

/-! ### Kinds of signals -/

theorem spectral_iff (t : Text) : t ∈ spectral ↔ String.ofList t ∈ spectralNames := by
  have e : spectralNames = spectral.map String.ofList := by decide
  rw [e, List.mem_map]
  constructor
  · intro h
    exact ⟨t, h, rfl⟩
  · rintro ⟨u, h1, h2⟩
    rw [String.ofList_injective h2] at h1
    exact h1

theorem isSpectrum_iff (s : Sig) : isSpectrum s = true ↔ ∃ a ∈ s.axes, String.ofList a.name ∈ spectralNames := by
  unfold isSpectrum
  rw [List.any_eq_true]
  constructor
  · rintro ⟨a, h1, h2⟩
    exact ⟨a, h1, (spectral_iff _).1 (by simpa using h2)⟩
  · rintro ⟨a, h1, h2⟩
    exact ⟨a, h1, by simpa using (spectral_iff _).2 h2⟩

theorem mem_whole {s : Sig} {ch : Nat} : (fun d => d ∈ whole s ch) = HasVal s.shape (s.data ch) := by
  funext d
  unfold whole HasVal
  rw [mem_ravel]

theorem whole_length (s : Sig) (ch : Nat) : (whole s ch).length = size s.shape := length_ravel _ _

theorem one_read {unzip : Bytes → Py Bytes} {zip : Bytes → Bytes} (hz : ∀ b, unzip (zip b) = .ok b)
    {junk : Int} (hj : -2147483648 ≤ junk ∧ junk ≤ 2147483647) {g : Args} {s : Sig} {sp : Split} {f : Bytes} {p : Part}
    (hw : writeFile id junk zip g s = .ok f) (hs : split s = .ok sp) (hp : PartFits g sp p) (hparts : sp.parts = [p])
    (ho : sp.nObjects = 1) (hc : sp.nChannels = 1) :
    ∃ r, readFile unzip f = .ok [r] ∧ PartBack g sp p r := by
  obtain ⟨rs, r1, r2, -⟩ := file_read hz hj hw hs (by rw [hparts]; intro q hq; rw [List.mem_singleton.1 hq]; exact hp)
    (by rw [hparts]; simp) (by rw [ho, hc, hparts]; rfl)
  rw [hparts] at r2
  cases r2 with
  | cons h1 h2 =>
    cases h2
    exact ⟨_, r1, h1⟩

theorem flatten_along {s : Sig} {a : Axis} {as : List Axis} (h : s.axes = a :: as) (ch : Nat) :
    (along s 0 ch).flatten = ravel s.shape (s.data ch) := by
  unfold along Sig.shape
  rw [h, List.map_cons]
  simp only [List.getElem?_cons_zero, Option.getD_some, List.eraseIdx_cons_zero, List.take_zero, List.drop_zero, List.nil_append]
  rw [ravel, List.flatMap_def]

theorem along_get {s : Sig} {a : Axis} {as : List Axis} (h : s.axes = a :: as) (ch : Nat) :
    along s 0 ch = (List.range a.size).map fun k => ravel (as.map Axis.size) fun I => s.data ch (k :: I) := by
  unfold along Sig.shape
  rw [h, List.map_cons]
  simp

theorem navIndex_head {s : Sig} {a : Axis} {as : List Axis} (h : s.axes = a :: as) (hn : a.navigate = true) :
    navIndex s = 0 ∧ navAxis s = some a := by
  have : navAxis s = some a := by
    unfold navAxis
    rw [h, List.find?_cons_of_pos hn]
  refine ⟨?_, this⟩
  unfold navIndex
  rw [this, h]
  simp

theorem headType_map (t t' : Int) (ty : DType) (l : List (List (Option Rat))) (h : l ≠ []) :
    ∃ p ps, headType t (l.map fun x => (⟨t', ty, x⟩ : Part)) = p :: ps ∧ p.type = t ∧ p.dtype = ty ∧
      (∀ q ∈ ps, q.type = t' ∧ q.dtype = ty) ∧ (p :: ps).map Part.points = l := by
  cases l with
  | nil => exact absurd rfl h
  | cons x l =>
    refine ⟨⟨t, ty, x⟩, l.map fun x => ⟨t', ty, x⟩, rfl, rfl, rfl, ?_, ?_⟩
    · intro q hq
      obtain ⟨y, -, rfl⟩ := List.mem_map.1 hq
      exact ⟨rfl, rfl⟩
    · rw [List.map_cons, List.map_map]
      congr 1
      exact List.map_id' l

theorem keeps_type {ty : DType} {t t' : Int} {sp : Bool} {V : Option Rat → Prop} (h : Keeps ty t sp V)
    (h1 : t ∈ [2, 5] ↔ t' ∈ [2, 5]) (h2 : t ∈ [3, 10, 12, 18] ↔ t' ∈ [3, 10, 12, 18]) : Keeps ty t' sp V := by
  obtain ⟨k1, k2, k3⟩ := h
  refine ⟨k1, k2, ?_⟩
  cases ty <;> dsimp only at k3 ⊢
  case float => rw [← h1, ← h2]; exact k3
  all_goals first | trivial | (rw [← h1]; exact k3)

theorem hasVal_slice {n k : Nat} {ns : List Nat} {data : List Nat → Option Rat} (hk : k < n) {d : Option Rat}
    (h : HasVal ns (fun I => data (k :: I)) d) : HasVal (n :: ns) data d := by
  obtain ⟨I, h1, h2⟩ := h
  exact ⟨k :: I, .cons hk h1, h2⟩

theorem spread_sub {V W : Option Rat → Prop} {R M : Rat} (h : Spread V R M) (hs : ∀ d, W d → V d) : Spread W R M :=
  ⟨fun a b ha hb => h.1 a b (hs _ ha) (hs _ hb), fun a ha => h.2 a (hs _ ha)⟩

/-- A series: a list of parts with the first of another type. -/
theorem series_read {unzip : Bytes → Py Bytes} {zip : Bytes → Bytes} (hz : ∀ b, unzip (zip b) = .ok b)
    {junk : Int} (hj : -2147483648 ≤ junk ∧ junk ≤ 2147483647) {g : Args} {s : Sig} {sp : Split} {f : Bytes}
    {t t' : Int} {ty : DType} {a : Axis} {as : List Axis} (hax : s.axes = a :: as)
    (hw : writeFile id junk zip g s = .ok f) (hs : split s = .ok sp)
    (hparts : sp.parts = headType t ((along s 0 0).map fun x => ⟨t', ty, x⟩)) (ho : sp.nObjects = a.size) (hc : sp.nChannels = 1)
    (hcount : ∀ u : Int, u = t ∨ u = t' → count sp u = size (as.map Axis.size)) (htypes : t ∈ ofTypes ∧ t' ∈ ofTypes)
    (h1 : t ∈ [2, 5] ↔ t' ∈ [2, 5]) (h2 : t ∈ [3, 10, 12, 18] ↔ t' ∈ [3, 10, 12, 18]) (hpos : 0 < a.size)
    (hk : ∀ k < a.size, Keeps ty t' g.special (HasVal (as.map Axis.size) fun I => s.data 0 (k :: I))) :
    ∃ p r rs, readFile unzip f = .ok (r :: rs) ∧ PartBack g sp p r ∧ p.type = t ∧ (r :: rs).length = a.size ∧
      (∀ q ∈ r :: rs, q.points.vals.length = size (as.map Axis.size)) ∧
      ∀ R M, Spread (HasVal s.shape (s.data 0)) R M →
        Values (bound ty R M) s.shape (s.data 0) ((r :: rs).flatMap fun r => r.points.vals) := by
  have hal := along_get hax 0
  have hne : along s 0 0 ≠ [] := by
    rw [hal]
    simp
    omega
  obtain ⟨p, ps, e1, e2, e3, e4, e5⟩ := headType_map t t' ty (along s 0 0) hne
  rw [e1] at hparts
  have hslice : ∀ q ∈ p :: ps, q.dtype = ty ∧ (q.type = t ∨ q.type = t') ∧
      ∃ k, k < a.size ∧ q.points = ravel (as.map Axis.size) fun I => s.data 0 (k :: I) := by
    intro q hq
    refine ⟨?_, ?_, ?_⟩
    · rcases List.mem_cons.1 hq with rfl | h
      · exact e3
      · exact (e4 q h).2
    · rcases List.mem_cons.1 hq with rfl | h
      · exact .inl e2
      · exact .inr (e4 q h).1
    · have : q.points ∈ along s 0 0 := by
        rw [← e5]
        exact List.mem_map.2 ⟨q, hq, rfl⟩
      rw [hal] at this
      obtain ⟨k, hk, h⟩ := List.mem_map.1 this
      exact ⟨k, List.mem_range.1 hk, h.symm⟩
  have hlen : (p :: ps).length = a.size := by
    have := congrArg List.length e5
    rw [hal] at this
    simpa using this
  have hmem : ∀ k, (fun d => d ∈ ravel (as.map Axis.size) fun I => s.data 0 (k :: I)) =
      HasVal (as.map Axis.size) fun I => s.data 0 (k :: I) := by
    intro k
    funext d
    unfold HasVal
    rw [mem_ravel]
  obtain ⟨rs, r1, r2, -⟩ := file_read hz hj hw hs (by
      rw [hparts]
      intro q hq
      obtain ⟨q1, q2, k, q3, q4⟩ := hslice q hq
      refine ⟨?_, ?_, ?_⟩
      · rw [q4, length_ravel, hcount _ q2]
      · rcases q2 with h | h <;> rw [h]
        · exact htypes.1
        · exact htypes.2
      · rw [q4, hmem, q1]
        rcases q2 with h | h <;> rw [h]
        · exact keeps_type (hk k q3) h1.symm h2.symm
        · exact hk k q3)
    (by rw [hparts]; simp) (by rw [ho, hc, hparts, hlen, max_self, one_mul]; omega)
  rw [hparts] at r2
  have hfl : ∀ R M, Spread (HasVal s.shape (s.data 0)) R M →
      Values (bound ty R M) s.shape (s.data 0) (rs.flatMap fun r => r.points.vals) := by
    intro R M hsp
    apply values_of
    have := flat_close (ty := ty) (R := R) (M := M) r2 (fun q hq => (hslice q hq).1) (by
      intro q hq
      obtain ⟨-, -, k, q3, q4⟩ := hslice q hq
      rw [q4, hmem]
      refine spread_sub hsp fun d hd => ?_
      unfold Sig.shape
      rw [hax, List.map_cons]
      exact hasVal_slice q3 hd)
    have e6 : (p :: ps).flatMap Part.points = ravel s.shape (s.data 0) := by
      rw [List.flatMap_def, e5, flatten_along hax]
    rw [e6] at this
    exact this
  have hlens := lengths (n := size (as.map Axis.size)) r2 (by
    intro q hq
    obtain ⟨-, -, k, -, q4⟩ := hslice q hq
    rw [q4, length_ravel])
  have hl2 := r2.length_eq
  cases r2 with
  | @cons _ r _ rs h1 h2 =>
    exact ⟨p, r, rs, r1, h1, e2, by rw [← hl2, hlen], hlens, hfl⟩

theorem close_zero {l m : List (Option Rat)} (h : List.Forall₂ (Close 0) l m) : m = l := by
  induction h with
  | nil => rfl
  | @cons a b l m h1 _ ih =>
    rw [ih]
    congr 1
    cases a <;> cases b
    · rfl
    · exact h1.elim
    · exact h1.elim
    · have h2 := abs_nonpos_iff.1 h1
      rw [sub_eq_zero] at h2
      rw [h2]

/-- Numbers from 0 to 65535 (images) are kept. -/
theorem keeps_image {ty : DType} (hty : ty = .i32 ∨ ty = .i16) {t : Int} {sp : Bool} {V : Option Rat → Prop} {N : Int}
    (hN : (ty = .i32 → N ≤ 65535) ∧ (ty = .i16 → N ≤ 32767))
    (h : ∀ d, V d → ∃ i : Int, d = some (i : Rat) ∧ 0 ≤ i ∧ i ≤ N) (he : ∃ d, V d) : Keeps ty t sp V := by
  have h2 : ∀ a, V (some a) → |a| ≤ 2 ^ 24 := by
    intro a ha
    obtain ⟨i, e, i1, i2⟩ := h _ ha
    cases e
    have : N ≤ 65535 := by
      rcases hty with h | h
      · exact hN.1 h
      · exact (hN.2 h).trans (by norm_num)
    have h3 : i ≤ 2 ^ 24 := by omega
    rw [abs_of_nonneg (by exact_mod_cast i1)]
    exact_mod_cast h3
  rcases hty with rfl | rfl
  · refine ⟨fun d hd => ?_, he, .inr h2⟩
    obtain ⟨i, e, i1, i2⟩ := h d hd
    have := hN.1 rfl
    exact ⟨i, e, by omega, by omega⟩
  · refine ⟨fun d hd => ?_, he, .inr h2⟩
    obtain ⟨i, e, i1, i2⟩ := h d hd
    have := hN.2 rfl
    exact ⟨i, e, by omega, by omega⟩

theorem exact_read {g : Args} {sp : Split} {p : Part} {r : Read} (h : PartBack g sp p r) (hf : p.dtype ≠ .float) :
    r.points.vals = p.points := by
  have : ∃ R M, Spread (· ∈ p.points) R M := by
    have : ∀ l : List (Option Rat), ∃ M, 0 ≤ M ∧ ∀ a, some a ∈ l → |a| ≤ M := by
      intro l
      induction l with
      | nil => exact ⟨0, le_refl _, by simp⟩
      | cons d l ih =>
        obtain ⟨M, h0, h1⟩ := ih
        refine ⟨max M ((d.map fun x => |x|).getD 0), le_max_of_le_left h0, fun a ha => ?_⟩
        rcases List.mem_cons.1 ha with rfl | ha
        · exact le_max_right _ _
        · exact (h1 a ha).trans (le_max_left _ _)
    obtain ⟨M, h0, h1⟩ := this p.points
    refine ⟨2 * M, M, fun a b ha hb => ?_, h1⟩
    have := abs_le.1 (h1 a ha)
    have := abs_le.1 (h1 b hb)
    linarith
  obtain ⟨R, M, hs⟩ := this
  have := h.2 R M hs
  unfold bound at this
  rw [if_neg hf] at this
  exact close_zero this

theorem toInt16_id {d : Option Rat} (h : ∃ i : Int, d = some (i : Rat) ∧ 0 ≤ i ∧ i ≤ 32767) : toInt16 d = d := by
  obtain ⟨i, rfl, h1, h2⟩ := h
  unfold toInt16
  rw [Option.map_some, Rat.num_intCast]
  congr 2
  unfold toSigned ofSigned
  norm_num
  split <;> omega

theorem forall₂_get {α β : Type} {R : α → β → Prop} : ∀ {l : List α} {m : List β}, List.Forall₂ R l m → ∀ {i : Nat} {a : α},
    l[i]? = some a → ∃ b, m[i]? = some b ∧ R a b
  | _, _, .nil, i, a, h => by simp at h
  | _, _, .cons h1 h2, i, a, h => by
    cases i with
    | zero =>
      rw [List.getElem?_cons_zero] at h
      cases h
      exact ⟨_, rfl, h1⟩
    | succ i => exact forall₂_get h2 h

/-- The parts of a series of images. -/
def imagePart (s : Sig) (k ch : Nat) : Part :=
  ⟨if k = 0 ∧ ch = 0 then 18 else if ch = 0 then 12 else 10, .i16, (((along s 0 ch)[k]?).getD []).map toInt16⟩

theorem imageParts (s : Sig) (n : Nat) :
    headType 18 ((List.range n).flatMap fun k => (List.range 3).map fun ch =>
      (⟨if ch = 0 then 12 else 10, .i16, (((along s 0 ch)[k]?).getD []).map toInt16⟩ : Part)) =
      (List.range n).flatMap fun k => (List.range 3).map fun ch => imagePart s k ch := by
  cases n with
  | zero => rfl
  | succ n =>
    rw [List.range_succ_eq_map (n := n), List.flatMap_cons, List.flatMap_cons, List.flatMap_map, List.flatMap_map]
    rfl

theorem imageParts_get (s : Sig) {n k ch : Nat} (hk : k < n) (hc : ch < 3) :
    ((List.range n).flatMap fun k => (List.range 3).map fun ch => imagePart s k ch)[k * 3 + ch]? = some (imagePart s k ch) := by
  rw [flatMap_range_getElem 3 _ (by simp) n k ch hk hc, List.getElem?_map, List.getElem?_range hc]
  rfl

end Verif.Lemmas.Digitalsurf
