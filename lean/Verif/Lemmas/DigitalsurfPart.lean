import Verif.Lemmas.DigitalsurfNorm
namespace Verif.Lemmas.Digitalsurf
open Verif.Digitalsurf Verif.Spec.Digitalsurf Verif.BytesSpec

/-! ### The values of an object -/

theorem f32_single {r : Rat} {m : Nat} (h : f32Enc r = some m) (hr : r = 0 ∨ (2 : Rat) ^ (-126 : Int) ≤ |r|) :
    |f32Dec m - r| ≤ 1 / 2 ^ 24 * |r| := f32_rel_err h hr

theorem limits_small {ty : DType} (h : isIntType ty = true) : ty = .i32 ∨ |ty.limits.1 + 1| ≤ 2 ^ 24 := by
  cases ty <;> first | (cases h; done) | exact .inl rfl | exact .inr (by decide)

/-- Normalised integers are read as they were. -/
theorem values_int {ty : DType} {type bits : Int} {special sp : Bool} {l : List (Option Rat)} {n : Norm} {ms mo : Nat} {l' : List (Option Rat)}
    (hty : isIntType ty = true) (hk : Keeps ty type special (· ∈ l)) (hn : normInt ty bits special (toInts l) = .ok n)
    (hs : f32Enc n.scale = some ms) (ho : f32Enc n.offset = some mo)
    (hm : List.Forall₂ (Means type sp n.zmin (f32Dec ms) (f32Dec mo)) n.ints l') : l' = l := by
  obtain ⟨b1, b2⟩ := toInts_back hty hk.1
  obtain ⟨n1, n2, n3, n4, n5, n6⟩ := normInt_ok hn b2
  rw [n3] at hs
  rw [f32_one hs] at hm
  rw [n4] at ho
  rw [n2] at hm
  have hz : type ∈ [2, 5] ∨ |n.zmin| ≤ 2 ^ 24 := by
    have hh : type ∈ [2, 5] ∨ ∀ a, some a ∈ l → |a| ≤ 2 ^ 24 := by
      have := hk.2.2
      cases ty <;> first | (cases hty; done) | exact this
    rcases hh with h | h
    · exact .inl h
    · right
      have hmem : ∀ i ∈ toInts l, |i| ≤ 2 ^ 24 := by
        intro i hi
        have : some (i : Rat) ∈ l := by
          rw [← b1]
          exact List.mem_map.2 ⟨i, hi, rfl⟩
        have := h _ this
        rw [← Int.cast_abs] at this
        exact_mod_cast this
      rcases n6 with h6 | ⟨h6, h7⟩
      · exact hmem _ h6
      · rcases limits_small hty with rfl | h8
        · have := hmem _ h6
          change |(-2147483648 : Int)| ≤ 2 ^ 24 at this
          norm_num at this
        · rw [h7]
          exact h8
  rw [← b1]
  have : ∀ {xs : List Int} {vs : List (Option Rat)}, (∀ x ∈ xs, n.zmin - 1 ≤ x) →
      List.Forall₂ (Means type sp n.zmin 1 (f32Dec mo)) xs vs → vs = xs.map (fun (i : Int) => some (i : Rat)) := by
    intro xs vs hxs hf
    induction hf with
    | nil => rfl
    | cons h1 _ ih =>
      rw [List.map_cons, ih (fun x hx => hxs x (List.mem_cons_of_mem _ hx)), means_int ho (hxs _ (List.mem_cons_self ..)) h1 hz]
  exact this n5 hm

theorem values_bool {type : Int} {special sp : Bool} {l : List (Option Rat)} {ms mo : Nat} {l' : List (Option Rat)}
    (hk : Keeps .bool type special (· ∈ l)) (hs : f32Enc 1 = some ms) (ho : f32Enc 0 = some mo)
    (hm : List.Forall₂ (Means type sp 0 (f32Dec ms) (f32Dec mo)) (toInts l) l') : l' = l := by
  rw [f32_one hs] at hm
  have ht := hk.1
  clear hk
  induction l generalizing l' with
  | nil =>
    cases hm
    rfl
  | cons d l ih =>
    unfold toInts at hm
    rw [List.map_cons] at hm
    cases hm with
    | cons h1 h2 =>
      rw [ih h2 (fun x hx => ht x (List.mem_cons_of_mem _ hx))]
      congr 1
      have ho' : f32Enc ((0 : Int) : Rat) = some mo := by simpa using ho
      rcases ht d (List.mem_cons_self ..) with rfl | rfl
      · have h1' : Means type sp 0 1 (f32Dec mo) 0 _ := h1
        have := means_int ho' (by decide) h1' (.inr (by decide))
        simpa using this
      · have h1' : Means type sp 0 1 (f32Dec mo) 1 _ := h1
        have := means_int ho' (by decide) h1' (.inr (by decide))
        simpa using this

/-- Normalised numbers are read with a small error. -/
theorem values_float {type junk : Int} {special sp : Bool} {l : List (Option Rat)} {n : Norm} {ms mo : Nat} {l' : List (Option Rat)}
    (hsp : special = true → sp = true)
    (hk : Keeps .float type special (· ∈ l)) (hn : normFloat id junk special l = .ok n)
    (hs : f32Enc n.scale = some ms) (ho : f32Enc n.offset = some mo)
    (hm : List.Forall₂ (Means type sp n.zmin (f32Dec ms) (f32Dec mo)) n.ints l') {R M : Rat}
    (hR : ∀ a b, some a ∈ l → some b ∈ l → b - a ≤ R) (hM : ∀ a, some a ∈ l → |a| ≤ M) :
    List.Forall₂ (Close (bound .float R M)) l l' := by
  obtain ⟨-, -, k1, k2, k3, k4, k5⟩ := hk
  obtain ⟨lo, hi, n1, n2, n3, n4, n5, n6, n7, n8, -⟩ := normFloat_ok hn
  have hspan : 4294967293 ≤ n.zmax - n.zmin ∧ n.zmax - n.zmin ≤ 4294967295 := by
    split at n7 <;> omega
  have hspanR : (4294967293 : Rat) ≤ ((n.zmax - n.zmin : Int) : Rat) := by exact_mod_cast hspan.1
  have hspanR' : ((n.zmax - n.zmin : Int) : Rat) ≤ 4294967295 := by exact_mod_cast hspan.2
  have hspanP : (0 : Rat) < ((n.zmax - n.zmin : Int) : Rat) := by linarith
  have hrange : (2 : Rat) ^ (-94 : Int) ≤ hi - lo := by
    obtain ⟨a, b, ha, hb, hab⟩ := k4
    have h1 := (n3 a ha).1
    have h2 := (n3 b hb).2
    linarith
  have hlt : lo < hi := by
    have : (0 : Rat) < (2 : Rat) ^ (-94 : Int) := by positivity
    linarith
  have hspos : 0 < n.scale := by
    rw [n6]
    exact div_pos (by linarith) hspanP
  have hsnorm : (2 : Rat) ^ (-126 : Int) ≤ |n.scale| := by
    rw [abs_of_pos hspos, n6, le_div_iff₀ hspanP]
    have h1 : (2 : Rat) ^ (-126 : Int) * ((n.zmax - n.zmin : Int) : Rat) ≤ (2 : Rat) ^ (-126 : Int) * 2 ^ (32 : Int) :=
      mul_le_mul_of_nonneg_left (hspanR'.trans (by norm_num)) (by positivity)
    rw [← zpow_add₀ (by norm_num)] at h1
    have h2 : (-126 : Int) + 32 = -94 := by norm_num
    rw [h2] at h1
    linarith
  have e1 := f32_rel_err hs (.inr hsnorm)
  rw [n5] at ho
  have e2 := f32_rel_err ho (k3 lo n1)
  have hRlo : hi - lo ≤ R := hR lo hi n1 n2
  have hMlo : |lo| ≤ M := hM lo n1
  have hni : type ∈ [2, 5] → ¬ ((f32Dec ms).isInt ∧ (f32Dec mo).isInt) := by
    intro ht hh
    have hw := k5 ht lo hi n1 n2
    have hs1 : n.scale ≤ 1 / 4 * 3 := by
      rw [n6, div_le_iff₀ hspanP]
      linarith
    rw [abs_of_pos hspos, abs_le] at e1
    have hp : 0 < f32Dec ms := by
      have : n.scale - 1 / 2 ^ 24 * n.scale ≤ f32Dec ms := by linarith [e1.1]
      have h2 : 0 < n.scale - 1 / 2 ^ 24 * n.scale := by
        have : n.scale - 1 / 2 ^ 24 * n.scale = (1 - 1 / 2 ^ 24) * n.scale := by ring
        rw [this]
        exact mul_pos (by norm_num) hspos
      linarith
    have hl : f32Dec ms < 1 := by
      have : f32Dec ms ≤ n.scale + 1 / 2 ^ 24 * n.scale := by linarith [e1.2]
      have h3 : 1 / 2 ^ 24 * n.scale ≤ 1 / 2 ^ 24 * (1 / 4 * 3) := mul_le_mul_of_nonneg_left hs1 (by norm_num)
      norm_num at h3 this ⊢
      linarith
    have hden := (isInt_iff _).1 hh.1
    have hnum : (f32Dec ms) = ((f32Dec ms).num : Rat) := (Rat.coe_int_num_of_den_eq_one hden).symm
    rw [hnum] at hp hl
    have hp' : 0 < (f32Dec ms).num := by exact_mod_cast hp
    have hl' : (f32Dec ms).num < 1 := by exact_mod_cast hl
    omega
  have hf := n8 hlt k2
  have hbound : n.scale + 1 / 2 ^ 24 * (hi - lo) + 1 / 2 ^ 24 * |lo| ≤ bound .float R M := by
    unfold bound
    rw [if_pos rfl]
    have h1 : n.scale ≤ R / 4294967293 := by
      rw [n6, div_le_div_iff₀ hspanP (by norm_num)]
      nlinarith
    have h2 : 1 / 2 ^ 24 * (hi - lo) ≤ R / 2 ^ 24 := by
      rw [one_div, inv_mul_eq_div]
      gcongr
    have h3 : 1 / 2 ^ 24 * |lo| ≤ M / 2 ^ 24 := by
      rw [one_div, inv_mul_eq_div]
      gcongr
    linarith
  have key : ∀ {ds : List (Option Rat)} {xs : List Int} {vs : List (Option Rat)}, (∀ d ∈ ds, d ∈ l) →
      List.Forall₂ (fun d x => match d with
        | none => x = n.zmin - 2
        | some d => n.zmin ≤ x ∧ x ≤ n.zmax ∧ |((x - n.zmin : Int) : Rat) - (d - lo) / n.scale| < 1) ds xs →
      List.Forall₂ (Means type sp n.zmin (f32Dec ms) (f32Dec mo)) xs vs → List.Forall₂ (Close (bound .float R M)) ds vs := by
    intro ds xs vs hds h1 h2
    induction h1 generalizing vs with
    | nil =>
      cases h2
      exact .nil
    | @cons d x ds xs hdx _ ih =>
      cases h2 with
      | @cons _ v _ vs' hv hvs =>
        refine .cons ?_ (ih (fun d hd => hds d (List.mem_cons_of_mem _ hd)) hvs)
        cases d with
        | none =>
          dsimp only at hdx
          have hspecial : special = true := k2.resolve_right (fun h => h (hds none (List.mem_cons_self ..)))
          cases hv with
          | bit h => subst h; exact absurd (by decide) k1
          | plain h h1 h2 => exact absurd ⟨h1, h2⟩ (hni (by rcases h with rfl | rfl <;> decide))
          | image i h => exact absurd (by rcases h with rfl | rfl | rfl <;> decide) k1
          | scaled h1 h2 h3 => exact absurd hdx (h3 (hsp hspecial))
          | missing => trivial
        | some d =>
          obtain ⟨y, rfl, hy⟩ := means_float hdx hspos (n3 d (hds _ (List.mem_cons_self ..))) n6 e1 e2 k1 hni hv
          exact hy.trans hbound
  exact key (fun d hd => hd) hf hm

/-! ### Writing and reading an object -/

theorem build_ok {rnd : Rat → Rat} {junk : Int} {zip : Bytes → Bytes} {g : Args} {s : Split} {k : Text} {p : Part} {o : Obj}
    (h : build rnd junk zip g s k p = .ok o) : ∃ n data cb, normData rnd junk p.dtype g.special p.points = .ok n ∧
      pointBytes zip g.compressed n = .ok data ∧ latin1 k = .ok cb ∧
      o = ⟨header g s p.type n data.length cb.length, k, reprBytes g.privateZone, data⟩ := by
  unfold build at h
  cases h1 : normData rnd junk p.dtype g.special p.points with
  | error e => rw [h1] at h; contradiction
  | ok n =>
    rw [h1] at h
    dsimp only at h
    cases h2 : pointBytes zip g.compressed n with
    | error e => rw [h2] at h; contradiction
    | ok data =>
      rw [h2] at h
      dsimp only at h
      cases h3 : latin1 k with
      | error e => rw [h3] at h; contradiction
      | ok cb =>
        rw [h3] at h
        injection h with h
        exact ⟨n, data, cb, rfl, h2, rfl, h.symm⟩

theorem limits_fit {ty : DType} {i : Int} (h : ty.limits.1 ≤ i ∧ i ≤ ty.limits.2) : Fits 4 i := by
  unfold Fits
  cases ty <;> simp only [DType.limits] at h <;> omega

theorem limits_fit2 {ty : DType} {i : Int} (hty : ty = .u8 ∨ ty = .i8 ∨ ty = .i16) (h : ty.limits.1 ≤ i ∧ i ≤ ty.limits.2) : Fits 2 i := by
  unfold Fits
  rcases hty with rfl | rfl | rfl <;> simp only [DType.limits] at h <;> omega

/-- The bits and the integers of normalised data. -/
theorem normData_fits {junk : Int} {ty : DType} {special : Bool} {l : List (Option Rat)} {n : Norm}
    (h : normData id junk ty special l = .ok n) (ht : ∀ d ∈ l, Typed ty d) (hj : -2147483648 ≤ junk ∧ junk ≤ 2147483647) :
    (n.bits = 16 ∧ ∀ i ∈ n.ints, Fits 2 i) ∨ (n.bits = 32 ∧ ∀ i ∈ n.ints, Fits 4 i) := by
  have hint : ∀ {bits : Int}, isIntType ty = true → normInt ty bits special (toInts l) = .ok n →
      n.bits = bits ∧ ∀ i ∈ n.ints, ty.limits.1 ≤ i ∧ i ≤ ty.limits.2 := by
    intro bits hty hn
    obtain ⟨-, b2⟩ := toInts_back hty ht
    obtain ⟨n1, n2, -⟩ := normInt_ok hn b2
    exact ⟨n1, by rw [n2]; exact b2⟩
  cases ty with
  | bool =>
    cases h
    left
    refine ⟨rfl, ?_⟩
    intro i hi
    obtain ⟨d, hd, rfl⟩ := List.mem_map.1 hi
    rcases ht d hd with rfl | rfl <;> (constructor <;> decide)
  | u8 =>
    obtain ⟨h1, h2⟩ := hint rfl h
    exact .inl ⟨h1, fun i hi => limits_fit2 (.inl rfl) (h2 i hi)⟩
  | u16 =>
    obtain ⟨h1, h2⟩ := hint rfl h
    exact .inr ⟨h1, fun i hi => limits_fit (h2 i hi)⟩
  | i8 =>
    obtain ⟨h1, h2⟩ := hint rfl h
    exact .inl ⟨h1, fun i hi => limits_fit2 (.inr (.inl rfl)) (h2 i hi)⟩
  | i16 =>
    obtain ⟨h1, h2⟩ := hint rfl h
    exact .inl ⟨h1, fun i hi => limits_fit2 (.inr (.inr rfl)) (h2 i hi)⟩
  | i32 =>
    obtain ⟨h1, h2⟩ := hint rfl h
    exact .inr ⟨h1, fun i hi => limits_fit (h2 i hi)⟩
  | float =>
    obtain ⟨lo, hi, -, -, -, h4, -, -, -, -, h9⟩ := normFloat_ok h
    refine .inr ⟨h4, fun i hi => ?_⟩
    have := h9 hj i hi
    unfold Fits
    omega
  | rgb8 => cases h
  | rgb16 => cases h
  | rgba8 => cases h
  | rgba16 => cases h
  | other => cases h

theorem normData_length {junk : Int} {ty : DType} {special : Bool} {l : List (Option Rat)} {n : Norm}
    (h : normData id junk ty special l = .ok n) : n.ints.length = l.length := by
  have hint : ∀ {bits : Int}, normInt ty bits special (toInts l) = .ok n → n.ints.length = l.length := by
    intro bits hn
    unfold normInt at hn
    dsimp only at hn
    split at hn
    · cases hn
      simp [toInts]
    · cases hn
  cases ty with
  | bool => cases h; simp [toInts]
  | u8 => exact hint h
  | u16 => exact hint h
  | i8 => exact hint h
  | i16 => exact hint h
  | i32 => exact hint h
  | float =>
    change normFloat id junk special l = .ok n at h
    unfold normFloat at h
    dsimp only at h
    split at h
    · cases h
      simp
    · cases h
  | rgb8 => cases h
  | rgb16 => cases h
  | rgba8 => cases h
  | rgba16 => cases h
  | other => cases h

/-- Number of points of an object. -/
def count (s : Split) (type : Int) : Nat :=
  extent s.x * extent s.y * max (if type = 21 then (s.t.map Axis.size).getD 0 else 0) 1

def ofTypes : List Int := [1, 2, 3, 4, 5, 10, 12, 18, 20, 21]

theorem part_read {unzip : Bytes → Py Bytes} {zip : Bytes → Bytes} (hz : ∀ b, unzip (zip b) = .ok b)
    {junk : Int} (hj : -2147483648 ≤ junk ∧ junk ≤ 2147483647) {g : Args} {s : Split} {k : Text} {p : Part} {o : Obj} {b : Bytes}
    (hb : build id junk zip g s k p = .ok o) (hw : writeObj o = .ok b) (hlen : p.points.length = count s p.type)
    (hty : p.type ∈ ofTypes) (hk : Keeps p.dtype p.type g.special (· ∈ p.points)) (rest : Bytes) :
    ∃ r n d c, readObj unzip (b ++ rest) = .ok (r, rest) ∧ BackAll (header g s p.type n d c) r.vals ∧
      Trim (k.take 32767) r.comment ∧
      Trim ((reprBytes g.privateZone).take (min g.privateZone.length 32767)) r.priv ∧
      ∀ R M, (∀ a b, some a ∈ p.points → some b ∈ p.points → b - a ≤ R) → (∀ a, some a ∈ p.points → |a| ≤ M) →
        List.Forall₂ (Close (bound p.dtype R M)) p.points r.points.vals := by
  obtain ⟨n, data, cb, h1, h2, h3, rfl⟩ := build_ok hb
  have hfit := normData_fits h1 hk.1 hj
  have hnl := normData_length h1
  have hholds : Holds zip ⟨header g s p.type n data.length cb.length, k, reprBytes g.privateZone, data⟩
      (if n.bits = 16 then 2 else 4) n.ints := by
    have hbits : (n.bits = 16 ∧ ∀ i ∈ n.ints, Fits 2 i) ∨ (n.bits = 32 ∧ ∀ i ∈ n.ints, Fits 4 i) := hfit
    refine ⟨?_, ?_, ?_⟩
    · rcases hbits with ⟨h, _⟩ | ⟨h, _⟩
      · rw [if_pos h]
        exact .inl ⟨rfl, h⟩
      · rw [if_neg (by omega)]
        exact .inr ⟨rfl, h⟩
    · rcases hbits with ⟨h, h'⟩ | ⟨h, h'⟩
      · rw [if_pos h]
        exact h'
      · rw [if_neg (by omega)]
        exact h'
    · unfold pointBytes at h2
      dsimp only at h2
      by_cases hc : g.compressed = true
      · rw [if_pos hc] at h2
        right
        refine ⟨?_, ⟨1, h2⟩, ?_⟩
        · change (if g.compressed = true then tCompressed else tUncompressed) = tCompressed
          rw [if_pos hc]
        · change ((if g.compressed = true then data.length else 0 : Nat) : Int) = data.length
          rw [if_pos hc]
      · rw [if_neg hc] at h2
        injection h2 with h2
        left
        refine ⟨?_, h2.symm, ?_⟩
        · change (if g.compressed = true then tCompressed else tUncompressed) = tUncompressed
          rw [if_neg hc]
        · change (n.ints.length : Int) = (extent s.x * extent s.y : Int) * max ((if p.type = 21 then ((s.t.map Axis.size).getD 0 : Nat) else 0 : Int)) 1
          rw [hnl, hlen]
          unfold count
          push_cast
          rfl
  obtain ⟨us, kk, pp, g1, g2, g3, g4, g5⟩ := readObj_writeObj hz hw hholds rest
  dsimp only at g1 g2 g3 g4
  have i5 : intOf us 5 = p.type := back_int g1 g2 (k := .i16) rfl rfl
  have i11 : intOf us 11 = if g.special then 1 else 0 := back_int g1 g2 (k := .i16) rfl rfl
  have i16 : intOf us 16 = n.zmin := back_int g1 g2 (k := .i32) rfl rfl
  obtain ⟨m35, e35, f35⟩ := back_float g1 g2 (n := 35) (k := .f32) rfl rfl
  obtain ⟨ms, es, fs⟩ := back_float g1 g2 (n := 23) (k := .f32) rfl rfl
  obtain ⟨mo, eo, fo⟩ := back_float g1 g2 (n := 55) (k := .f32) rfl rfl
  change f32Enc 1 = some m35 at e35
  change f32Enc n.scale = some ms at es
  change f32Enc n.offset = some mo at eo
  rw [f32_one e35] at f35
  have hob : intOf us 5 ∈ objectTypes := by
    rw [i5]
    have : ∀ t ∈ ofTypes, t ∈ objectTypes := by decide
    exact this _ hty
  obtain ⟨pts, d1, -, d3⟩ := decode_means n.ints f35 hob
  rw [d1] at g5
  dsimp only at g5
  refine ⟨_, n, data.length, cb.length, g5, g1, ?_, g4, ?_⟩
  · change Trim (k.take ((min cb.length 32767 : Nat) : Int).toNat) kk at g3
    obtain ⟨l1, l2⟩ := latin1_ok h3
    have hcl : cb.length = k.length := by
      have := congrArg List.length l1
      simpa using this
    rw [Int.toNat_natCast, hcl] at g3
    have : k.take (min k.length 32767) = k.take 32767 := by
      rw [Nat.min_comm, ← List.take_take, List.take_length]
    rw [this] at g3
    exact g3
  · intro R M hR hM
    rw [i5, i16, fs, fo] at d3
    dsimp only
    by_cases hfl : p.dtype = .float
    · rw [hfl] at h1 hk ⊢
      exact values_float (sp := decide (intOf us 11 = 1)) (fun h => by rw [i11, if_pos h]; rfl) hk h1 es eo d3 hR hM
    · have heq : pts.vals = p.points := by
        cases hd : p.dtype with
        | bool =>
          rw [hd] at h1 hk
          cases h1
          exact values_bool hk es eo d3
        | u8 => rw [hd] at h1 hk; exact values_int rfl hk h1 es eo d3
        | u16 => rw [hd] at h1 hk; exact values_int rfl hk h1 es eo d3
        | i8 => rw [hd] at h1 hk; exact values_int rfl hk h1 es eo d3
        | i16 => rw [hd] at h1 hk; exact values_int rfl hk h1 es eo d3
        | i32 => rw [hd] at h1 hk; exact values_int rfl hk h1 es eo d3
        | float => exact absurd hd hfl
        | rgb8 => rw [hd] at h1; cases h1
        | rgb16 => rw [hd] at h1; cases h1
        | rgba8 => rw [hd] at h1; cases h1
        | rgba16 => rw [hd] at h1; cases h1
        | other => rw [hd] at h1; cases h1
      rw [heq, List.forall₂_same]
      intro d hd
      have hnn : ∃ y, d = some y := by
        have := hk.1 d hd
        cases hd' : p.dtype <;> rw [hd'] at this <;> first
          | exact absurd hd' hfl
          | exact this.elim
          | (obtain ⟨i, h, -⟩ := this; exact ⟨_, h⟩)
          | (rcases this with h | h <;> exact ⟨_, h⟩)
      obtain ⟨y, rfl⟩ := hnn
      unfold bound Close
      rw [if_neg hfl]
      simp

end Verif.Lemmas.Digitalsurf
