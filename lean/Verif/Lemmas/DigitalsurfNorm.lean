import Verif.Lemmas.DigitalsurfObj
namespace Verif.Lemmas.Digitalsurf
open Verif.Digitalsurf Verif.Spec.Digitalsurf Verif.BytesSpec

/-! ### What the points mean -/

theorem isInt_iff (r : Rat) : r.isInt = true ↔ r.den = 1 := by
  unfold Rat.isInt
  exact beq_iff_eq

theorem decode_means {us : List Val} (l : List Int) (h35 : floatOf us 35 = 1) (hty : intOf us 5 ∈ objectTypes) :
    ∃ pts, decode us l = .ok pts ∧ (pts.isInt = true ↔ intOf us 5 ∈ [3, 10, 12, 18] ∨
        (intOf us 5 ∈ [2, 5] ∧ (floatOf us 23).isInt ∧ (floatOf us 55).isInt)) ∧
      List.Forall₂ (Means (intOf us 5) (decide (intOf us 11 = 1)) (intOf us 16) (floatOf us 23) (floatOf us 55)) l pts.vals := by
  unfold decode
  dsimp only
  rw [h35, if_neg (by norm_num), if_neg (not_not.2 hty), div_one]
  by_cases h1 : (intOf us 5 = 5 ∨ intOf us 5 = 2) ∧ (floatOf us 23).den = 1 ∧ (floatOf us 55).den = 1
  · rw [if_pos h1]
    refine ⟨_, rfl, iff_of_true rfl (.inr ⟨?_, (isInt_iff _).2 h1.2.1, (isInt_iff _).2 h1.2.2⟩), ?_⟩
    · rcases h1.1 with h | h <;> simp [h]
    · dsimp only
      rw [List.forall₂_map_right_iff, List.forall₂_same]
      intro x _
      exact .plain h1.1.symm ((isInt_iff _).2 h1.2.1) ((isInt_iff _).2 h1.2.2)
  · rw [if_neg h1]
    have hni : intOf us 5 ∈ [2, 5] → ¬ ((floatOf us 23).isInt ∧ (floatOf us 55).isInt) := by
      intro hm hh
      refine h1 ⟨?_, (isInt_iff _).1 hh.1, (isInt_iff _).1 hh.2⟩
      simp at hm
      tauto
    by_cases h2 : intOf us 5 = 12 ∨ intOf us 5 = 18 ∨ intOf us 5 = 10
    · rw [if_pos h2]
      refine ⟨_, rfl, iff_of_true rfl (.inl ?_), ?_⟩
      · rcases h2 with h | h | h <;> simp [h]
      · dsimp only
        rw [List.forall₂_map_right_iff, List.forall₂_same]
        intro x _
        exact .image _ (by tauto) (roundEven_err _)
    · rw [if_neg h2]
      by_cases h3 : intOf us 5 = 3
      · rw [if_pos h3]
        refine ⟨_, rfl, iff_of_true rfl (.inl (by simp [h3])), ?_⟩
        dsimp only
        rw [List.forall₂_map_right_iff, List.forall₂_same]
        intro x _
        exact .bit h3
      · rw [if_neg h3]
        have hnm : intOf us 5 ∉ ([3, 10, 12, 18] : List Int) := by
          simp
          tauto
        refine ⟨_, rfl, iff_of_false (by simp) ?_, ?_⟩
        · rintro (h | ⟨h, h'⟩)
          · exact hnm h
          · exact hni h h'
        · dsimp only
          rw [List.forall₂_map_right_iff, List.forall₂_same]
          intro x _
          split
          next hx => exact .missing hnm hni (by simp [hx.1]) hx.2
          next hx => exact .scaled hnm hni (fun hs hx' => hx ⟨by simpa using hs, hx'⟩)

/-! ### Normalisation -/

def isIntType : DType → Bool
  | .u8 | .u16 | .i8 | .i16 | .i32 => true
  | _ => false

theorem typed_int {ty : DType} (h : isIntType ty = true) {d : Option Rat} (hd : Typed ty d) :
    ∃ i : Int, d = some (i : Rat) ∧ ty.limits.1 ≤ i ∧ i ≤ ty.limits.2 := by
  cases ty <;> first | (cases h; done) | exact hd

theorem toInts_back {ty : DType} (h : isIntType ty = true) {l : List (Option Rat)} (hl : ∀ d ∈ l, Typed ty d) :
    (toInts l).map (fun (i : Int) => some (i : Rat)) = l ∧ ∀ i ∈ toInts l, ty.limits.1 ≤ i ∧ i ≤ ty.limits.2 := by
  induction l with
  | nil => exact ⟨rfl, fun i hi => by cases hi⟩
  | cons d l ih =>
    obtain ⟨i, rfl, h1, h2⟩ := typed_int h (hl d (List.mem_cons_self ..))
    obtain ⟨g1, g2⟩ := ih (fun x hx => hl x (List.mem_cons_of_mem _ hx))
    unfold toInts at g1 g2 ⊢
    simp only [List.map_cons, Rat.num_intCast]
    refine ⟨by rw [g1], ?_⟩
    intro j hj
    rcases List.mem_cons.1 hj with rfl | hj
    · exact ⟨h1, h2⟩
    · exact g2 j hj

theorem foldl_min : ∀ (l : List Int) (a : Int), (l.foldl min a ∈ a :: l) ∧ ∀ x ∈ a :: l, l.foldl min a ≤ x
  | [], a => by simp
  | b :: l, a => by
    obtain ⟨h1, h2⟩ := foldl_min l (min a b)
    rw [List.foldl_cons]
    constructor
    · rcases List.mem_cons.1 h1 with h | h
      · rw [h]
        rcases min_choice a b with h' | h' <;> rw [h'] <;> simp
      · exact List.mem_cons_of_mem _ (List.mem_cons_of_mem _ h)
    · intro x hx
      have h0 := h2 (min a b) (List.mem_cons_self ..)
      rcases List.mem_cons.1 hx with rfl | hx
      · omega
      · rcases List.mem_cons.1 hx with rfl | hx
        · omega
        · exact h2 x (List.mem_cons_of_mem _ hx)

theorem minOf_ok {l : List Int} {m : Int} (h : minOf l = some m) : m ∈ l ∧ ∀ x ∈ l, m ≤ x := by
  cases l with
  | nil => cases h
  | cons a l =>
    cases h
    exact foldl_min l a

/-- What the normalisation of integers gives. -/
theorem normInt_ok {ty : DType} {bits : Int} {special : Bool} {l : List Int} {n : Norm} (h : normInt ty bits special l = .ok n)
    (hl : ∀ i ∈ l, ty.limits.1 ≤ i ∧ i ≤ ty.limits.2) :
    n.bits = bits ∧ n.ints = l ∧ n.scale = 1 ∧ n.offset = n.zmin ∧ (∀ i ∈ l, n.zmin - 1 ≤ i) ∧
      (n.zmin ∈ l ∨ (ty.limits.1 ∈ l ∧ n.zmin = ty.limits.1 + 1)) := by
  unfold normInt at h
  dsimp only at h
  split at h
  next a b ha hb =>
    cases h
    refine ⟨rfl, rfl, rfl, rfl, ?_, ?_⟩
    · intro i hi
      dsimp only
      split at ha
      · cases ha
        have := (hl i hi).1
        omega
      · have := (minOf_ok ha).2 i hi
        omega
    · dsimp only
      split at ha
      next hs =>
        cases ha
        exact .inr ⟨hs.1, rfl⟩
      · exact .inl (minOf_ok ha).1
  · cases h

theorem f32_one {m : Nat} (h : f32Enc 1 = some m) : f32Dec m = 1 := by
  have := f32_exact_int (i := 1) (by simpa using h) (by norm_num)
  simpa using this

/-- The value that is read for an integer. -/
theorem means_int {type zmin x : Int} {special : Bool} {m : Nat} {v : Option Rat} (hm : f32Enc (zmin : Rat) = some m)
    (hx : zmin - 1 ≤ x) (h : Means type special zmin 1 (f32Dec m) x v)
    (hz : type ∈ [2, 5] ∨ |zmin| ≤ 2 ^ 24) : v = some (x : Rat) := by
  have hplain : type ∈ [2, 5] → (1 : Rat).isInt ∧ (f32Dec m).isInt := by
    intro _
    obtain ⟨j, hj⟩ := f32_int hm
    refine ⟨rfl, ?_⟩
    rw [hj, isInt_iff]
    rfl
  have hexact : type ∉ [2, 5] → f32Dec m = zmin := fun hn => f32_exact_int hm (hz.resolve_left hn)
  cases h with
  | bit h => rfl
  | plain => rfl
  | image i h he =>
    have hn : type ∉ [2, 5] := by
      rcases h with rfl | rfl | rfl <;> decide
    rw [hexact hn] at he
    have e : ((x : Rat) - zmin) * 1 + zmin = x := by ring
    rw [e] at he
    have : i = x := by
      have h1 : |((i - x : Int) : Rat)| ≤ 1 / 2 := by push_cast; exact he
      rw [← Int.cast_abs] at h1
      have h2 : |i - x| < 1 := by
        have : ((|i - x| : Int) : Rat) < ((1 : Int) : Rat) := lt_of_le_of_lt h1 (by norm_num)
        exact_mod_cast this
      have h3 := Int.abs_lt_one_iff.1 h2
      omega
    rw [this]
  | scaled h1 h2 h3 =>
    have hn : type ∉ [2, 5] := fun hc => h2 hc (hplain hc)
    rw [hexact hn]
    congr 1
    ring
  | missing h1 h2 h3 h4 => omega

/-! ### Floating-point numbers -/

theorem foldl_minR : ∀ (l : List Rat) (a : Rat), (l.foldl min a ∈ a :: l) ∧ ∀ x ∈ a :: l, l.foldl min a ≤ x
  | [], a => by simp
  | b :: l, a => by
    obtain ⟨h1, h2⟩ := foldl_minR l (min a b)
    rw [List.foldl_cons]
    constructor
    · rcases List.mem_cons.1 h1 with h | h
      · rw [h]
        rcases min_choice a b with h' | h' <;> rw [h'] <;> simp
      · exact List.mem_cons_of_mem _ (List.mem_cons_of_mem _ h)
    · intro x hx
      have h0 := h2 (min a b) (List.mem_cons_self ..)
      rcases List.mem_cons.1 hx with rfl | hx
      · exact h0.trans (min_le_left _ _)
      · rcases List.mem_cons.1 hx with rfl | hx
        · exact h0.trans (min_le_right _ _)
        · exact h2 x (List.mem_cons_of_mem _ hx)

theorem foldl_maxR : ∀ (l : List Rat) (a : Rat), (l.foldl max a ∈ a :: l) ∧ ∀ x ∈ a :: l, x ≤ l.foldl max a
  | [], a => by simp
  | b :: l, a => by
    obtain ⟨h1, h2⟩ := foldl_maxR l (max a b)
    rw [List.foldl_cons]
    constructor
    · rcases List.mem_cons.1 h1 with h | h
      · rw [h]
        rcases max_choice a b with h' | h' <;> rw [h'] <;> simp
      · exact List.mem_cons_of_mem _ (List.mem_cons_of_mem _ h)
    · intro x hx
      have h0 := h2 (max a b) (List.mem_cons_self ..)
      rcases List.mem_cons.1 hx with rfl | hx
      · exact (le_max_left _ _).trans h0
      · rcases List.mem_cons.1 hx with rfl | hx
        · exact (le_max_right _ _).trans h0
        · exact h2 x (List.mem_cons_of_mem _ hx)

theorem minRat_ok {l : List Rat} {m : Rat} (h : minRat l = some m) : m ∈ l ∧ ∀ x ∈ l, m ≤ x := by
  cases l with
  | nil => cases h
  | cons a l =>
    cases h
    exact foldl_minR l a

theorem maxRat_ok {l : List Rat} {m : Rat} (h : maxRat l = some m) : m ∈ l ∧ ∀ x ∈ l, x ≤ m := by
  cases l with
  | nil => cases h
  | cons a l =>
    cases h
    exact foldl_maxR l a

/-- Truncation moves a number by less than one, towards zero. -/
theorem truncate_err (r : Rat) : |(truncate r : Rat) - r| < 1 := by
  unfold truncate
  have h1 := Int.floor_le r
  have h2 := Int.lt_floor_add_one r
  have h3 := Int.le_ceil r
  have h4 := Int.ceil_lt_add_one r
  split <;> rw [abs_lt] <;> constructor <;> linarith

theorem truncate_ge {r : Rat} {i : Int} (h : (i : Rat) ≤ r) : i ≤ truncate r := by
  unfold truncate
  split
  · exact Int.le_floor.2 h
  · have := h.trans (Int.le_ceil r)
    exact_mod_cast this

theorem truncate_le {r : Rat} {i : Int} (h : r ≤ i) : truncate r ≤ i := by
  unfold truncate
  split
  · have := (Int.floor_le r).trans h
    exact_mod_cast this
  · exact Int.ceil_le.2 h

theorem toInt32_range {junk : Int} (hj : -2147483648 ≤ junk ∧ junk ≤ 2147483647) (r : Rat) :
    -2147483648 ≤ toInt32 junk r ∧ toInt32 junk r ≤ 2147483647 := by
  unfold toInt32
  split
  · assumption
  · exact hj

/-- What the normalisation of numbers in double precision gives. -/
theorem normFloat_ok {junk : Int} {special : Bool} {l : List (Option Rat)} {n : Norm}
    (h : normFloat id junk special l = .ok n) : ∃ lo hi, some lo ∈ l ∧ some hi ∈ l ∧ (∀ d, some d ∈ l → lo ≤ d ∧ d ≤ hi) ∧
      n.bits = 32 ∧ n.offset = lo ∧ n.scale = (hi - lo) / ((n.zmax - n.zmin : Int) : Rat) ∧
      (if special = true ∧ none ∈ l then n.zmin = -2147483646 ∧ n.zmax - n.zmin = 4294967293 else
        n.zmin = -2147483648 ∧ n.zmax - n.zmin = 4294967295) ∧
      (lo < hi → (special = true ∨ none ∉ l) → List.Forall₂ (fun d x => match d with
        | none => x = n.zmin - 2
        | some d => n.zmin ≤ x ∧ x ≤ n.zmax ∧ |((x - n.zmin : Int) : Rat) - (d - lo) / n.scale| < 1) l n.ints) ∧
      ((-2147483648 ≤ junk ∧ junk ≤ 2147483647) → ∀ x ∈ n.ints, -2147483648 ≤ x ∧ x ≤ 2147483647) := by
  unfold normFloat at h
  dsimp only at h
  split at h
  next off top hmin hmax =>
    cases h
    obtain ⟨m1, m2⟩ := minRat_ok hmin
    obtain ⟨t1, t2⟩ := maxRat_ok hmax
    have hnan : (special && l.any Option.isNone) = true ↔ special = true ∧ none ∈ l := by
      rw [Bool.and_eq_true, List.any_eq_true]
      constructor
      · rintro ⟨h1, d, h2, h3⟩
        cases d with
        | none => exact ⟨h1, h2⟩
        | some d => cases h3
      · rintro ⟨h1, h2⟩
        exact ⟨h1, none, h2, rfl⟩
    have hmem : ∀ d : Rat, d ∈ l.filterMap id ↔ some d ∈ l := by
      intro d
      rw [List.mem_filterMap]
      constructor
      · rintro ⟨a, h1, h2⟩
        cases h2
        exact h1
      · intro h
        exact ⟨some d, h, rfl⟩
    refine ⟨off, top, (hmem off).1 m1, (hmem top).1 t1, fun d hd => ⟨m2 d ((hmem d).2 hd), t2 d ((hmem d).2 hd)⟩,
      rfl, rfl, rfl, ?_, ?_, ?_⟩
    · dsimp only
      by_cases hc : special = true ∧ none ∈ l
      · rw [if_pos hc, if_pos (hnan.2 hc), if_pos (hnan.2 hc)]
        omega
      · rw [if_neg hc, if_neg (fun h => hc (hnan.1 h)), if_neg (fun h => hc (hnan.1 h))]
        omega
    · intro hlt hn
      dsimp only
      generalize hnanv : (special && l.any Option.isNone) = nan at *
      generalize hZ : (if nan = true then (-2147483648 + 2 : Int) else -2147483648) = zmin at *
      generalize hM : (if nan = true then 4294967296 + zmin - 3 else 4294967296 + zmin - 1) = zmax at *
      have hrange : -2147483648 ≤ zmin ∧ zmin < zmax ∧ zmax ≤ 2147483647 := by
        cases nan
        · simp only [Bool.false_eq_true, if_false] at hZ hM
          omega
        · simp only [if_true] at hZ hM
          omega
      simp only [id_eq]
      have hspan : (0 : Rat) < ((zmax - zmin : Int) : Rat) := by exact_mod_cast (by omega : (0 : Int) < zmax - zmin)
      generalize hS : (top - off) / ((zmax - zmin : Int) : Rat) = scale at *
      have hs : 0 < scale := by rw [← hS]; exact div_pos (by linarith) hspan
      rw [List.forall₂_map_right_iff, List.forall₂_same]
      intro d hd
      cases d with
      | none =>
        have : nan = true := hnan.2 ⟨hn.resolve_right (fun h => h hd), hd⟩
        dsimp only
        rw [if_pos this]
      | some d =>
        dsimp only
        rw [if_neg hs.ne']
        have h1 := m2 d ((hmem d).2 hd)
        have h2 := t2 d ((hmem d).2 hd)
        have q0 : 0 ≤ (d - off) / scale := div_nonneg (by linarith) hs.le
        have q1 : (d - off) / scale ≤ ((zmax - zmin : Int) : Rat) := by
          rw [div_le_iff₀ hs, ← hS, mul_div_cancel₀ _ hspan.ne']
          linarith
        have g1 : zmin ≤ truncate ((d - off) / scale + zmin) := truncate_ge (by linarith)
        have g2 : truncate ((d - off) / scale + zmin) ≤ zmax := truncate_le (by push_cast at q1; linarith)
        have g3 := truncate_err ((d - off) / scale + zmin)
        unfold toInt32
        rw [if_pos ⟨by omega, by omega⟩]
        refine ⟨g1, g2, ?_⟩
        push_cast
        have : (truncate ((d - off) / scale + zmin) : Rat) - zmin - (d - off) / scale =
          (truncate ((d - off) / scale + zmin) : Rat) - ((d - off) / scale + zmin) := by ring
        rw [this]
        exact g3
    · intro hj x hx
      obtain ⟨d, hd, rfl⟩ := List.mem_map.1 hx
      cases d with
      | none =>
        dsimp only
        split_ifs
        · omega
        · exact hj
      | some d =>
        dsimp only
        split_ifs <;> first | exact hj | exact toInt32_range hj _
  · cases h

/-- The value that is read for a number. -/
theorem means_float {type zmin zmax x : Int} {special : Bool} {lo hi scale s' o' d : Rat} {v : Option Rat}
    (hx : zmin ≤ x ∧ x ≤ zmax ∧ |((x - zmin : Int) : Rat) - (d - lo) / scale| < 1)
    (hs : 0 < scale) (hd : lo ≤ d ∧ d ≤ hi) (hscale : scale = (hi - lo) / ((zmax - zmin : Int) : Rat))
    (hs' : |s' - scale| ≤ 1 / 2 ^ 24 * |scale|) (ho' : |o' - lo| ≤ 1 / 2 ^ 24 * |lo|)
    (hty : type ∉ [3, 10, 12, 18]) (hni : type ∈ [2, 5] → ¬ (s'.isInt ∧ o'.isInt))
    (h : Means type special zmin s' o' x v) : ∃ y, v = some y ∧
      |y - d| ≤ scale + 1 / 2 ^ 24 * (hi - lo) + 1 / 2 ^ 24 * |lo| := by
  cases h with
  | bit h => subst h; exact absurd (by decide) hty
  | plain h h1 h2 =>
    exact absurd ⟨h1, h2⟩ (hni (by rcases h with rfl | rfl <;> decide))
  | image i h => exact absurd (by rcases h with rfl | rfl | rfl <;> decide) hty
  | missing h1 h2 h3 h4 => omega
  | scaled h1 h2 h3 =>
    refine ⟨_, rfl, ?_⟩
    have hk0 : (0 : Rat) ≤ ((x - zmin : Int) : Rat) := by exact_mod_cast (by omega : (0 : Int) ≤ x - zmin)
    have hk1 : ((x - zmin : Int) : Rat) * scale ≤ hi - lo := by
      have hz : zmin < zmax := by
        rcases lt_or_eq_of_le (show zmin ≤ zmax by omega) with h | h
        · exact h
        · rw [h] at hscale
          simp at hscale
          rw [hscale] at hs
          exact absurd hs (lt_irrefl _)
      have hpos : (0 : Rat) < ((zmax - zmin : Int) : Rat) := by exact_mod_cast (by omega : (0 : Int) < zmax - zmin)
      have hle : ((x - zmin : Int) : Rat) ≤ ((zmax - zmin : Int) : Rat) := by exact_mod_cast (by omega : x - zmin ≤ zmax - zmin)
      calc ((x - zmin : Int) : Rat) * scale ≤ ((zmax - zmin : Int) : Rat) * scale := mul_le_mul_of_nonneg_right hle hs.le
        _ = hi - lo := by rw [hscale]; field_simp
    have e1 : ((x : Rat) - zmin) = ((x - zmin : Int) : Rat) := by push_cast; ring
    rw [e1]
    generalize ((x - zmin : Int) : Rat) = k at *
    obtain ⟨-, -, hx3⟩ := hx
    have e2 : k * s' + o' - d = (k - (d - lo) / scale) * scale + k * (s' - scale) + (o' - lo) := by
      field_simp
      ring
    rw [e2]
    have t1 : |(k - (d - lo) / scale) * scale| ≤ scale := by
      rw [abs_mul, abs_of_pos hs]
      nlinarith
    have t2 : |k * (s' - scale)| ≤ 1 / 2 ^ 24 * (hi - lo) := by
      rw [abs_mul, abs_of_nonneg hk0]
      rw [abs_of_pos hs] at hs'
      calc k * |s' - scale| ≤ k * (1 / 2 ^ 24 * scale) := mul_le_mul_of_nonneg_left hs' hk0
        _ = 1 / 2 ^ 24 * (k * scale) := by ring
        _ ≤ _ := mul_le_mul_of_nonneg_left hk1 (by positivity)
    calc _ ≤ |(k - (d - lo) / scale) * scale + k * (s' - scale)| + |o' - lo| := abs_add_le _ _
      _ ≤ |(k - (d - lo) / scale) * scale| + |k * (s' - scale)| + |o' - lo| := by gcongr; exact abs_add_le _ _
      _ ≤ _ := by linarith

end Verif.Lemmas.Digitalsurf
