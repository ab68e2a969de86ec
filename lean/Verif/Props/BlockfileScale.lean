import Verif.Model.BlockfileScale
import Verif.Props.Blockfile
import Mathlib.Tactic.Linarith
import Mathlib.Tactic.FieldSimp
import Mathlib.Tactic.Ring
import Mathlib.Tactic.Positivity
import Mathlib.Tactic.NormNum
/-!
C156, C157 and C158: intensities, virtual bright field images and calibrations of blockfiles.
-/
namespace Verif.Props.BlockfileScale
open Verif.Blockfile Verif.BlockfileScale Verif.Props.Blockfile

/-! ### Intensities -/

/-- A number in a range is mapped to a byte: below to 0, above to 255, in between to the part of 255, rounded down. -/
def Scaled (lo hi x : Rat) (b : UInt8) : Prop :=
  (x ≤ lo → b = 0) ∧ (hi ≤ x → b = 255) ∧
  (lo < x → x < hi → (b.toNat : Rat) * (hi - lo) ≤ 255 * (x - lo) ∧ 255 * (x - lo) < (b.toNat + 1) * (hi - lo))

/-- Least and greatest numbers of a type of integers. -/
inductive IntRange : DType → Rat → Rat → Prop
  | unsigned (bits : Nat) : IntRange (.int false bits) 0 (2 ^ bits - 1)
  | signed (bits : Nat) : IntRange (.int true (bits + 1)) (-2 ^ bits) (2 ^ bits - 1)

/-- The byte asked for a number. -/
inductive Asked (t : DType) (data : List Rat) : Scaling → Rat → UInt8 → Prop
  | plain {x : Rat} {b : UInt8} : (b.toNat : Rat) ≤ x → x < b.toNat + 1 → Asked t data .plain x b
  | dtype {x lo hi : Rat} {b : UInt8} : IntRange t lo hi → Scaled lo hi x b → Asked t data .dtype x b
  | minmax {x lo hi : Rat} {b : UInt8} : lo ∈ data → hi ∈ data → (∀ y ∈ data, lo ≤ y ∧ y ≤ hi) → Scaled lo hi x b → Asked t data .minmax x b
  | crop {x : Rat} {b : UInt8} : Scaled 0 255 x b → Asked t data .crop x b
  | range {x lo hi : Rat} {b : UInt8} : Scaled lo hi x b → Asked t data (.range lo hi) x b

/-- Scalings that can be asked for: numbers that are bytes, integers, data that are not constant, ranges that are not empty. -/
def Fine (t : DType) (data : List Rat) : Scaling → Prop
  | .plain => True
  | .dtype => ∃ s bits, t = .int s bits ∧ 8 ≤ bits
  | .minmax => ∃ x ∈ data, ∃ y ∈ data, x ≠ y
  | .crop => True
  | .range lo hi => lo < hi

/-- A number that is to be written without scaling is in the range of bytes. -/
def Byte (s : Scaling) (x : Rat) : Prop := s = .plain → 0 ≤ x ∧ x < 256

theorem byte_floor {y : Rat} (h0 : 0 ≤ y) (h1 : y < 256) : ((byteOf (trunc y)).toNat : Rat) ≤ y ∧ y < (byteOf (trunc y)).toNat + 1 := by
  have a0 : 0 ≤ ⌊y⌋ := Int.floor_nonneg.2 h0
  have a1 : ⌊y⌋ < 256 := Int.floor_lt.2 (by exact_mod_cast h1)
  have e : ((byteOf (trunc y)).toNat : Int) = ⌊y⌋ := by
    unfold byteOf trunc
    rw [if_neg (not_lt.2 h0), Int.emod_eq_of_lt a0 a1, UInt8.toNat_ofNat']
    omega
  have e' : ((byteOf (trunc y)).toNat : Rat) = (⌊y⌋ : Rat) := by exact_mod_cast congrArg (fun z : Int => (z : Rat)) e
  rw [e']
  exact ⟨Int.floor_le y, Int.lt_floor_add_one y⟩

theorem byte_zero : byteOf (trunc 0) = 0 := by decide +kernel
theorem byte_top : byteOf (trunc 255) = 255 := by decide +kernel

theorem rescale_scaled {lo hi : Rat} (h : lo < hi) (x : Rat) : Scaled lo hi x (byteOf (rescale lo hi x)) := by
  have hd : 0 < hi - lo := by linarith
  unfold rescale
  rw [if_pos h.ne]
  refine ⟨fun hx => ?_, fun hx => ?_, fun h1 h2 => ?_⟩
  · have : clip lo hi x = lo := by
      unfold clip
      rw [max_eq_right hx, min_eq_left h.le]
    rw [this, sub_self, zero_div, zero_mul, zero_add]
    exact byte_zero
  · have : clip lo hi x = hi := by
      unfold clip
      rw [max_eq_left (h.le.trans hx), min_eq_right hx]
    rw [this, div_self hd.ne']
    norm_num
    exact byte_top
  · have : clip lo hi x = x := by
      unfold clip
      rw [max_eq_left h1.le, min_eq_left h2.le]
    rw [this]
    have e : (x - lo) / (hi - lo) * (255 - 0) + 0 = 255 * (x - lo) / (hi - lo) := by ring
    rw [e]
    have b0 : 0 ≤ 255 * (x - lo) / (hi - lo) := div_nonneg (by linarith) hd.le
    have b1 : 255 * (x - lo) / (hi - lo) < 256 := by rw [div_lt_iff₀ hd]; linarith
    have := byte_floor b0 b1
    exact ⟨(le_div_iff₀ hd).1 this.1, (div_lt_iff₀ hd).1 this.2⟩

theorem least_spec : ∀ (l : List Rat) (m : Rat), (least m l = m ∨ least m l ∈ l) ∧ least m l ≤ m ∧ ∀ y ∈ l, least m l ≤ y
  | [], m => ⟨Or.inl rfl, le_refl _, by simp⟩
  | x :: l, m => by
    obtain ⟨h1, h2, h3⟩ := least_spec l (min m x)
    rw [least]
    refine ⟨?_, h2.trans (min_le_left _ _), fun y hy => ?_⟩
    · rcases h1 with h | h
      · rw [h]
        rcases min_choice m x with e | e <;> rw [e]
        · exact Or.inl rfl
        · exact Or.inr (List.mem_cons_self ..)
      · exact Or.inr (List.mem_cons_of_mem _ h)
    · rcases List.mem_cons.1 hy with rfl | hy
      · exact h2.trans (min_le_right _ _)
      · exact h3 y hy

theorem greatest_spec : ∀ (l : List Rat) (m : Rat), (greatest m l = m ∨ greatest m l ∈ l) ∧ m ≤ greatest m l ∧ ∀ y ∈ l, y ≤ greatest m l
  | [], m => ⟨Or.inl rfl, le_refl _, by simp⟩
  | x :: l, m => by
    obtain ⟨h1, h2, h3⟩ := greatest_spec l (max m x)
    rw [greatest]
    refine ⟨?_, (le_max_left _ _).trans h2, fun y hy => ?_⟩
    · rcases h1 with h | h
      · rw [h]
        rcases max_choice m x with e | e <;> rw [e]
        · exact Or.inl rfl
        · exact Or.inr (List.mem_cons_self ..)
      · exact Or.inr (List.mem_cons_of_mem _ h)
    · rcases List.mem_cons.1 hy with rfl | hy
      · exact (le_max_right _ _).trans h2
      · exact h3 y hy

/-- What is asked for is done, for every number of any array. -/
theorem pixel_asked {undef : Rat → UInt8} {t u : DType} {data : List Rat} {s : Scaling} {r : Option (Rat × Rat)} (hf : Fine t data s) (h : scaleOf t data s = .ok r) {x : Rat}
    (hx : Byte s x) : Asked t data s x (pixel undef u r x) := by
  cases s with
  | plain =>
    cases h
    obtain ⟨h0, h1⟩ := hx rfl
    have := byte_floor h0 h1
    unfold pixel castByte
    cases u with
    | float =>
      dsimp only
      rw [if_pos ⟨by linarith, h1⟩]
      exact .plain this.1 this.2
    | int _ _ => exact .plain this.1 this.2
    | bool => exact .plain this.1 this.2
  | dtype =>
    obtain ⟨sg, bits, rfl, hb⟩ := hf
    replace h : (if (limits (.int sg bits)).2 = 1 then .error .valueError else .ok (some (limits (.int sg bits))) : Py (Option (Rat × Rat))) = .ok r := h
    have two : (2 : Rat) ≤ 2 ^ (bits - 1) := by
      calc (2 : Rat) = 2 ^ 1 := by norm_num
        _ ≤ 2 ^ (bits - 1) := pow_le_pow_right₀ (by norm_num) (by omega)
    split at h
    · cases h
    · cases h
      cases sg with
      | false =>
        refine .dtype (.unsigned bits) (rescale_scaled ?_ x)
        have : (2 : Rat) ^ (bits - 1) ≤ 2 ^ bits := pow_le_pow_right₀ (by norm_num) (by omega)
        linarith
      | true =>
        obtain ⟨k, rfl⟩ : ∃ k, bits = k + 1 := ⟨bits - 1, by omega⟩
        refine .dtype (.signed k) (rescale_scaled ?_ x)
        rw [Nat.add_sub_cancel] at two
        linarith
  | minmax =>
    obtain ⟨a, ha, b, hb, hne⟩ := hf
    cases data with
    | nil => cases ha
    | cons d ds =>
      cases h
      obtain ⟨l1, l2, l3⟩ := least_spec ds d
      obtain ⟨g1, g2, g3⟩ := greatest_spec ds d
      have all : ∀ y ∈ d :: ds, least d ds ≤ y ∧ y ≤ greatest d ds := by
        intro y hy
        rcases List.mem_cons.1 hy with rfl | hy
        · exact ⟨l2, g2⟩
        · exact ⟨l3 y hy, g3 y hy⟩
      refine .minmax (lo := least d ds) (hi := greatest d ds) ?_ ?_ all (rescale_scaled ?_ x)
      · rcases l1 with e | e
        · rw [e]; exact List.mem_cons_self ..
        · exact List.mem_cons_of_mem _ e
      · rcases g1 with e | e
        · rw [e]; exact List.mem_cons_self ..
        · exact List.mem_cons_of_mem _ e
      · have := all a ha
        have := all b hb
        rcases lt_or_gt_of_ne hne with h | h <;> linarith
  | crop =>
    cases h
    exact .crop (rescale_scaled (by norm_num) x)
  | range lo hi =>
    cases h
    exact .range (rescale_scaled hf x)

/-- A number has one byte only. -/
theorem Scaled.unique {lo hi x : Rat} {b c : UInt8} (h : lo < hi) (hb : Scaled lo hi x b) (hc : Scaled lo hi x c) : b = c := by
  rcases le_or_gt x lo with h1 | h1
  · rw [hb.1 h1, hc.1 h1]
  · rcases le_or_gt hi x with h2 | h2
    · rw [hb.2.1 h2, hc.2.1 h2]
    · have hd : 0 < hi - lo := by linarith
      obtain ⟨b1, b2⟩ := hb.2.2 h1 h2
      obtain ⟨c1, c2⟩ := hc.2.2 h1 h2
      have x1 : (b.toNat : Rat) < c.toNat + 1 := lt_of_mul_lt_mul_right (lt_of_le_of_lt b1 c2) hd.le
      have x2 : (c.toNat : Rat) < b.toNat + 1 := lt_of_mul_lt_mul_right (lt_of_le_of_lt c1 b2) hd.le
      have y1 : b.toNat < c.toNat + 1 := by exact_mod_cast x1
      have y2 : c.toNat < b.toNat + 1 := by exact_mod_cast x2
      exact UInt8.toNat_inj.1 (by omega)

/-! ### Files -/

section
variable {convert : Rat → List Char → List Char → Option Rat} {enc : Rat → Nat} {dec : Nat → Rat} {undef : Rat → UInt8} {big : Bool} {base : Header} {note : List Char}
  {axes left : List Ax} {t : DType} {frames : List (List Rat)} {scaling : Scaling} {stored : Option (DType × List Rat)} {nav : Nav} {f : List UInt8}

/-- Sizes of the scan. -/
def scanSizes (axes : List Ax) : List Nat := (axes.filter fun a => a.navigate).map Ax.size

theorem convert_size (a : Ax) : (convertAx convert a).size = a.size ∧ (convertAx convert a).navigate = a.navigate := by
  unfold convertAx
  split
  · exact ⟨rfl, rfl⟩
  · split <;> exact ⟨rfl, rfl⟩

theorem convert_sizes (b : Bool) : ∀ axes : List Ax, ((axes.map (convertAx convert)).filter fun a => a.navigate == b).map Ax.size = (axes.filter fun a => a.navigate == b).map Ax.size
  | [] => rfl
  | a :: axes => by
    have h := convert_size (convert := convert) a
    have ih := convert_sizes b axes
    rw [List.map_cons, List.filter_cons, List.filter_cons, h.2]
    split
    · rw [List.map_cons, List.map_cons, h.1, ih]
    · exact ih

theorem write_parts (h : writeSignal convert enc undef big base note axes t frames scaling stored nav = .ok (f, left)) :
    ∃ r s p sdp n, scaleOf t frames.flatten scaling = .ok r ∧ left = axes.map (convertAx convert) ∧ scanScale (left.filter fun a => a.navigate) = .ok s ∧
      signalAxes left = .ok p ∧ sdpOf p.2.scale = .ok sdp ∧ navigatorOf (axes.map Ax.size) frames stored nav = .ok n ∧
      writeFile big base note (scanSizes axes) (p.1.size, p.2.size) (enc s.1) (enc s.2) sdp (n.2.map (pixel undef n.1 r)) (frames.map fun l => l.map (pixel undef t r)) = .ok f := by
  unfold writeSignal at h
  cases h1 : scaleOf t frames.flatten scaling with
  | error e => rw [h1] at h; cases h
  | ok r =>
  rw [h1] at h
  replace h : (do
    let s ← scanScale ((axes.map (convertAx convert)).filter fun a => a.navigate)
    let p ← signalAxes (axes.map (convertAx convert))
    let sdp ← sdpOf p.2.scale
    let n ← navigatorOf (axes.map Ax.size) frames stored nav
    let f ← writeFile big base note (((axes.map (convertAx convert)).filter fun a => a.navigate).map Ax.size) (p.1.size, p.2.size) (enc s.1) (enc s.2) sdp
      (n.2.map (pixel undef n.1 r)) (frames.map fun l => l.map (pixel undef t r))
    return (f, axes.map (convertAx convert)) : Py (List UInt8 × List Ax)) = .ok (f, left) := h
  cases h2 : scanScale ((axes.map (convertAx convert)).filter fun a => a.navigate) with
  | error e => rw [h2] at h; cases h
  | ok s =>
  rw [h2] at h
  cases h3 : signalAxes (axes.map (convertAx convert)) with
  | error e => rw [h3] at h; cases h
  | ok p =>
  rw [h3] at h
  cases h4 : sdpOf p.2.scale with
  | error e => simp only [bind, Except.bind, h4] at h; cases h
  | ok sdp =>
  cases h5 : navigatorOf (axes.map Ax.size) frames stored nav with
  | error e => simp only [bind, Except.bind, h4, h5] at h; cases h
  | ok n =>
  have e : ((axes.map (convertAx convert)).filter fun a => a.navigate).map Ax.size = scanSizes axes := by
    have := convert_sizes (convert := convert) true axes
    simpa [scanSizes] using this
  simp only [bind, Except.bind, h4, h5, e] at h
  cases h6 : writeFile big base note (scanSizes axes) (p.1.size, p.2.size) (enc s.1) (enc s.2) sdp (n.2.map (pixel undef n.1 r))
    (frames.map fun l => l.map (pixel undef t r)) with
  | error e => rw [h6] at h; cases h
  | ok g =>
  rw [h6] at h
  cases h
  exact ⟨r, s, p, sdp, n, rfl, rfl, h2, h3, h4, rfl, h6⟩

theorem signal_sizes {p : Ax × Ax} {n : Nat} (h : signalAxes (axes.map (convertAx convert)) = .ok p) (hn : ∀ a ∈ axes, a.navigate = false → a.size = n) :
    p.1.size = n ∧ p.2.size = n := by
  have mem : ∀ b ∈ (axes.map (convertAx convert)).filter fun a => !a.navigate, b.size = n := by
    intro b hb
    obtain ⟨hb, hv⟩ := List.mem_filter.1 hb
    obtain ⟨a, ha, rfl⟩ := List.mem_map.1 hb
    have := convert_size (convert := convert) a
    rw [this.1]
    refine hn a ha ?_
    rw [this.2] at hv
    simpa using hv
  unfold signalAxes at h
  split at h
  · rename_i a b l e
    cases h
    rw [e] at mem
    exact ⟨mem a (by simp), mem b (by simp)⟩
  · cases h

theorem take_all {m : Nat} {frames : List (List UInt8)} (hd : f.drop m = frameRecords false 0 frames) (hm : m ≤ f.length) {k : Nat} (hf : ∀ p ∈ frames, p.length = k) :
    f.take (m + (frames.length * (6 + k) + 0)) = f := by
  apply List.take_of_length_le
  have := congrArg List.length hd
  rw [List.length_drop, frameRecords_length false k frames 0 hf] at this
  omega

/-- C156, partial: the byte read for a number of the signal is the one that was asked for, at the same place. Missing: floats out of the range of bytes, big-endian headers (C22),
constant data, empty ranges. -/
theorem C156_file_partial {n nx ny : Nat} (hb : base.Fits) (h : writeSignal convert enc undef false base note axes t frames scaling stored nav = .ok (f, left))
    (hs : ScanOf (scanSizes axes) nx ny) (hn : ∀ a ∈ axes, a.navigate = false → a.size = n) (hfr : ∀ l ∈ frames, l.length = n * n) (hcount : frames.length = ny * nx)
    (hf : Fine t frames.flatten scaling) (hx : ∀ l ∈ frames, ∀ x ∈ l, Byte scaling x) :
    ∃ res, readFile false f = .ok res ∧ res.shape = [ny, nx, n, n].filter (· ≠ 1) ∧ res.data.length = ny * nx * (n * n) ∧
      ∀ y x p, y < ny → x < nx → p < n * n → ∃ l v b, frames[y * nx + x]? = some l ∧ l[p]? = some v ∧ res.data[(y * nx + x) * (n * n) + p]? = some b ∧
        Asked t frames.flatten scaling v b := by
  obtain ⟨r, s, p, sdp, nv, h1, rfl, h2, h3, h4, h5, h6⟩ := write_parts h
  obtain ⟨p1, p2⟩ := signal_sizes h3 hn
  rw [p1, p2] at h6
  have hfr' : ∀ q ∈ frames.map (fun l => l.map (pixel undef t r)), q.length = n * n := by
    intro q hq
    obtain ⟨l, hl, rfl⟩ := List.mem_map.1 hq
    rw [List.length_map]
    exact hfr l hl
  obtain ⟨hd, res, e1, e2, e3, e4, e5, e6, e7, e8, e9, e10, e11, e12⟩ := C22_roundtrip_partial (k := ny * nx) (r := 0) hb h6 hs hfr' (by rw [List.length_map]; exact hcount) (le_refl _) (by omega)
  obtain ⟨hd', text, f1, -, -, -, -, -, -, f2, f3, -⟩ := C21_sections hb h6
  rw [e1] at f1
  cases f1
  have ht := take_all f2 f3 hfr'
  rw [List.length_map, hcount] at ht
  rw [ht] at e2
  refine ⟨res, e2, e10, e11, fun y x q hy hx' hq => ?_⟩
  have hlt : y * nx + x < ny * nx := by
    calc y * nx + x < y * nx + nx := by omega
      _ = (y + 1) * nx := by ring
      _ ≤ ny * nx := Nat.mul_le_mul_right _ hy
  obtain ⟨l, hl⟩ : ∃ l, frames[y * nx + x]? = some l := ⟨_, List.getElem?_eq_getElem (by omega)⟩
  have hm := List.mem_of_getElem? hl
  obtain ⟨v, hv⟩ : ∃ v, l[q]? = some v := ⟨_, List.getElem?_eq_getElem (by rw [hfr l hm]; exact hq)⟩
  refine ⟨l, v, pixel undef t r v, hl, hv, ?_, pixel_asked hf h1 (hx l hm v (List.mem_of_getElem? hv))⟩
  rw [e12 y x q hy hx' hq, if_pos hlt, List.getElem?_map, hl]
  simp only [Option.map_some, Option.bind_some, List.getElem?_map, hv]

/-- C156: floats and truth values have no range of a type; nothing is written. -/
theorem C156_refused (h : t = .float ∨ t = .bool) : writeSignal convert enc undef big base note axes t frames .dtype stored nav = .error .valueError := by
  rcases h with rfl | rfl <;> rfl

/-- C156: integers from 0 to 255 are written as they are, whether cropped or not. -/
theorem C156_integers {data : List Rat} {k : Nat} {b : UInt8} (hk : k < 256) {s : Scaling} (hs : s = .plain ∨ s = .crop ∨ (s = .dtype ∧ t = .int false 8))
    (h : Asked t data s k b) : b.toNat = k := by
  have sc : Scaled 0 255 (k : Rat) b → b.toNat = k := by
    intro hb
    refine congrArg UInt8.toNat (hb.unique (c := UInt8.ofNat k) (by norm_num) ?_) |>.trans (by rw [UInt8.toNat_ofNat']; omega)
    have e : (UInt8.ofNat k).toNat = k := by rw [UInt8.toNat_ofNat']; omega
    refine ⟨fun h0 => ?_, fun h1 => ?_, fun _ _ => ?_⟩
    · have : k = 0 := by exact_mod_cast le_antisymm h0 (by positivity)
      rw [this]; rfl
    · have : 255 ≤ k := by exact_mod_cast h1
      have : k = 255 := by omega
      rw [this]; rfl
    · rw [e]
      constructor <;> linarith
  rcases hs with rfl | rfl | ⟨rfl, rfl⟩
  · cases h with
    | plain h1 h2 =>
      have a : b.toNat ≤ k := by exact_mod_cast h1
      have b : k < b.toNat + 1 := by exact_mod_cast h2
      omega
  · cases h with
    | crop h => exact sc h
  · cases h with
    | dtype h1 h2 =>
      cases h1
      refine sc ?_
      norm_num at h2
      exact h2

/-! ### The image for navigation -/

/-- The numbers of the image: zeros, those of HyperSpy, the mean of each frame, or those given. -/
inductive NavIs (ny nx : Nat) (frames : List (List Rat)) (stored : Option (DType × List Rat)) : Nav → List Rat → Prop
  | none : NavIs ny nx frames stored .none (List.replicate (ny * nx) 0)
  | stored {u : DType} {v : List Rat} : stored = some (u, v) → NavIs ny nx frames stored .auto v
  | mean {v : List Rat} : stored = Option.none → v.length = frames.length →
      (∀ (i : Nat) (m : Rat) (l : List Rat), v[i]? = some m → frames[i]? = some l → m * l.length = l.sum) → NavIs ny nx frames stored .auto v
  | array {u : DType} {v : List Rat} : NavIs ny nx frames stored (.array [ny, nx] u v) v

/-- C157, partial: the image for navigation is in the file at the first offset, row by row, in the same scale as the data. Missing: scans of one line or point. -/
theorem C157_image_partial {ny nx dy dx : Nat} {v : List Rat} (hb : base.Fits) (h : writeSignal convert enc undef big base note axes t frames scaling stored nav = .ok (f, left))
    (hsz : axes.map Ax.size = [ny, nx, dy, dx]) (hl : ∀ l ∈ frames, l ≠ []) (hv : NavIs ny nx frames stored nav v) (hf : Fine t frames.flatten scaling) :
    ∀ i x, v[i]? = some x → Byte scaling x → ∃ b, f[base.off1 + i]? = some b ∧ Asked t frames.flatten scaling x b := by
  obtain ⟨r, s, p, sdp, n, h1, rfl, h2, h3, h4, h5, h6⟩ := write_parts h
  obtain ⟨hd, text, f1, -, -, -, -, -, f4, -⟩ := C21_sections hb h6
  have hoff : hd.off1 = base.off1 := (fits_update hb f1).2.1
  have hnv : n.2 = v := by
    rw [hsz] at h5
    cases hv with
    | none => cases h5; simp
    | stored e => rw [e] at h5; cases h5; rfl
    | mean e e1 e2 =>
      rw [e] at h5
      cases h5
      apply List.ext_getElem?
      intro i
      rw [List.getElem?_map]
      cases hv : v[i]? with
      | none =>
        rw [List.getElem?_eq_none_iff, e1, ← List.getElem?_eq_none_iff] at hv
        rw [hv]
        rfl
      | some m =>
        obtain ⟨l, hl'⟩ : ∃ l, frames[i]? = some l := by
          have := (List.getElem?_eq_some_iff.1 hv).1
          exact ⟨_, List.getElem?_eq_getElem (by omega)⟩
        have hne := hl l (List.mem_of_getElem? hl')
        have := e2 i m l hv hl'
        rw [hl', Option.map_some]
        unfold mean
        rw [← this, mul_div_cancel_right₀]
        have : 0 < l.length := List.length_pos_iff.2 hne
        exact_mod_cast this.ne'
    | array =>
      unfold navigatorOf at h5
      dsimp only at h5
      rw [if_neg (by simp)] at h5
      cases h5
      rfl
  intro i x hi hx
  refine ⟨pixel undef n.1 r x, ?_, pixel_asked hf h1 hx⟩
  have hlt := (List.getElem?_eq_some_iff.1 hi).1
  have := congrArg (fun q : List UInt8 => q[i]?) f4
  rw [List.getElem?_take_of_lt (by rw [List.length_map, hnv]; exact hlt), List.getElem?_drop, hoff, List.getElem?_map, hnv, hi] at this
  exact this

/-- C157: images of another shape, and what is not an array, are refused. -/
theorem C157_refused (h : nav = .other ∨ ∃ s u v, nav = .array s u v ∧ s ≠ (axes.map Ax.size).take 2) :
    ∀ r, writeSignal convert enc undef big base note axes t frames scaling stored nav ≠ .ok r := by
  rintro ⟨f, left⟩ hw
  obtain ⟨r, s, p, sdp, n, -, -, -, -, -, h5, -⟩ := write_parts hw
  rcases h with rfl | ⟨sh, u, v, rfl, hne⟩
  · cases h5
  · unfold navigatorOf at h5
    dsimp only at h5
    rw [if_pos hne] at h5
    cases h5

/-! ### Calibrations -/

/-- The scale of an axis in the units of the format, if it can be converted; else as it is. -/
inductive Converts (convert : Rat → List Char → List Char → Option Rat) (a : Ax) (u : String) : Rat → Prop
  | some {v : Rat} : a.units ≠ [] → convert a.scale a.units u.toList = some v → Converts convert a u v
  | fails : a.units ≠ [] → convert a.scale a.units u.toList = none → Converts convert a u a.scale
  | missing : a.units = [] → Converts convert a u a.scale

theorem converts_scale {a : Ax} {u : String} {v : Rat} (hu : u = if a.navigate then "nm" else "cm") (h : Converts convert a u v) : (convertAx convert a).scale = v := by
  have hu' : (if a.navigate then "nm".toList else "cm".toList) = u.toList := by rw [hu]; split <;> rfl
  unfold convertAx
  cases h with
  | some h1 h2 => rw [if_neg h1, hu', h2]
  | fails h1 h2 => rw [if_neg h1, hu', h2]
  | missing h1 => rw [if_pos h1]

/-- C158, partial: the steps of the scan are read in nm as they were. The step of the patterns is read in cm, up to a hundredth of its product with the step that is read; it is
exact if it is a whole part of a metre. Missing: scans of one row or column, steps of more than a metre, and different steps of the pattern. -/
theorem C158_scales_partial {y x dy dx : Ax} {sy sx s : Rat} (hb : base.Fits)
    (h : writeSignal convert enc undef false base note [y, x, dy, dx] t frames scaling stored nav = .ok (f, left))
    (hn : y.navigate = true ∧ x.navigate = true ∧ dy.navigate = false ∧ dx.navigate = false) (h1 : y.size ≠ 1 ∧ x.size ≠ 1 ∧ dy.size ≠ 1) (hdd : dx.size = dy.size)
    (hfr : ∀ l ∈ frames, l.length = dy.size * dy.size) (hcount : frames.length = y.size * x.size)
    (cy : Converts convert y "nm" sy) (cx : Converts convert x "nm" sx) (cd : Converts convert dx "cm" s) (ey : dec (enc sy) = sy) (ex : dec (enc sx) = sx)
    (hs0 : 0 < s) (hs1 : s ≤ 100) :
    ∃ res d, readFile false f = .ok res ∧
      axesRead dec res.header res.shape = [("y", "nm", sy, true, y.size), ("x", "nm", sx, true, x.size), ("dy", "cm", d, false, dy.size), ("dx", "cm", d, false, dy.size)] ∧
      s ≤ d ∧ d - s < s * d / 100 ∧ ∀ k : Nat, s = 100 / k → d = s := by
  obtain ⟨r, sc, p, sdp, nv, -, rfl, h2, h3, h4, -, h6⟩ := write_parts h
  obtain ⟨n1, n2, n3, n4⟩ := hn
  have c := fun a => (convert_size (convert := convert) a).2
  have e2 : sc = (sx, sy) := by
    simp only [List.map_cons, List.map_nil, List.filter_cons, c, n1, n2, n3, n4, if_true, Bool.false_eq_true, if_false, List.filter_nil, scanScale] at h2
    cases h2
    rw [converts_scale (by rw [n2]; rfl) cx, converts_scale (by rw [n1]; rfl) cy]
  have e3 : p = (convertAx convert dy, convertAx convert dx) := by
    simp only [List.map_cons, List.map_nil, signalAxes, List.filter_cons, c, n1, n2, n3, n4, if_true, Bool.false_eq_true, if_false, List.filter_nil, Bool.not_true, Bool.not_false] at h3
    cases h3
    rfl
  subst e2 e3
  dsimp only at h4 h6
  rw [converts_scale (by rw [n4]; rfl) cd] at h4
  rw [(convert_size dy).1, (convert_size dx).1, hdd] at h6
  have hsz : scanSizes [y, x, dy, dx] = [y.size, x.size] := by
    simp [scanSizes, n1, n2, n3, n4]
  rw [hsz] at h6
  have hfr' : ∀ q ∈ frames.map (fun l => l.map (pixel undef t r)), q.length = dy.size * dy.size := by
    intro q hq
    obtain ⟨l, hl, rfl⟩ := List.mem_map.1 hq
    rw [List.length_map]
    exact hfr l hl
  obtain ⟨hd, res, g1, g2, g3, g4, g5, g6, g7, g8, g9, g10, -, -⟩ := C22_roundtrip_partial (k := y.size * x.size) (r := 0) hb h6 (Or.inl rfl) hfr'
    (by rw [List.length_map]; exact hcount) (le_refl _) (by omega)
  obtain ⟨hd', text, f1, -, -, -, -, -, -, f2, f3, -⟩ := C21_sections hb h6
  rw [g1] at f1
  cases f1
  have ht := take_all f2 f3 hfr'
  rw [List.length_map, hcount] at ht
  rw [ht] at g2
  -- the number of steps in a metre
  have hq : 1 ≤ 100 / s := by rw [le_div_iff₀ hs0]; linarith
  have htr : trunc (100 / s) = ⌊100 / s⌋ := if_neg (not_lt.2 (by linarith))
  have hfl : 1 ≤ ⌊100 / s⌋ := Int.le_floor.2 (by exact_mod_cast hq)
  unfold sdpOf at h4
  rw [if_neg hs0.ne', htr, if_pos (by omega)] at h4
  replace h4 : ⌊100 / s⌋.toNat = sdp := by injection h4
  have hk : ((sdp : Nat) : Rat) = (⌊100 / s⌋ : Rat) := by
    rw [← h4]
    exact_mod_cast congrArg (fun z : Int => (z : Rat)) (Int.toNat_of_nonneg (by omega : 0 ≤ ⌊100 / s⌋))
  have k1 : (1 : Rat) ≤ sdp := by rw [hk]; exact_mod_cast hfl
  have hsd : sdpRead sdp = 100 / sdp := if_pos (by intro e; rw [e] at k1; norm_num at k1)
  have l1 : (sdp : Rat) ≤ 100 / s := by rw [hk]; exact Int.floor_le _
  have l2 : 100 / s < (sdp : Rat) + 1 := by rw [hk]; exact Int.lt_floor_add_one _
  have k0 : (0 : Rat) < sdp := by linarith
  refine ⟨res, 100 / sdp, g2, ?_, ?_, ?_, ?_⟩
  · unfold axesRead
    rw [g10, g3, g7, g8, g9, ey, ex, hsd]
    simp [h1.1, h1.2.1, h1.2.2]
  · rw [le_div_iff₀ k0]
    rw [le_div_iff₀ hs0] at l1
    linarith
  · rw [div_lt_iff₀ hs0] at l2
    have : 100 / (sdp : Rat) - s = (100 - s * sdp) / sdp := by field_simp
    rw [this, div_lt_iff₀ k0]
    have : s * (100 / (sdp : Rat)) / 100 * sdp = s := by field_simp
    rw [this]
    linarith
  · intro k hk'
    have kz : (k : Rat) ≠ 0 := by
      intro e
      rw [e, div_zero] at hk'
      exact hs0.ne' hk'
    have : 100 / s = (k : Rat) := by rw [hk']; field_simp
    rw [this, show ((k : Nat) : Rat) = ((k : Int) : Rat) by push_cast; rfl, Int.floor_intCast] at hk
    rw [hk, hk']
    push_cast
    rfl

/-- C158: beam energies are in keV and rotations in degrees. -/
theorem C158_mapped (h : Header) : (∀ v, ("Acquisition_instrument.TEM.beam_energy", v) ∈ mapped h ↔ v * 1000 = h.energy) ∧
    ∀ v, ("Acquisition_instrument.TEM.rotation", v) ∈ mapped h ↔ v * 100 = h.scanRot := by
  constructor <;> intro v <;> simp only [mapped, List.mem_cons, Prod.mk.injEq, List.not_mem_nil, or_false] <;> simp <;> constructor <;> intro e
  · rw [e]; field_simp
  · rw [← e]; field_simp
  · rw [e]; field_simp
  · rw [← e]; field_simp

end

/-! ### Concrete signals; lengths in m, cm and nm, numbers as their numerators -/

/-- Metres to centimetres and nanometres. -/
def toUnits (x : Rat) (u v : List Char) : Option Rat :=
  if u = "m".toList ∧ v = "cm".toList then some (x * 100) else if u = "nm".toList ∧ v = "nm".toList then some x else none

/-- Whole numbers as their numerators. -/
def encNum (x : Rat) : Nat := x.num.toNat

/-- A scan of 2 × 2 positions with patterns of 2 × 2 pixels. -/
def scanAxes : List Ax := [⟨2, 3, "nm".toList, true⟩, ⟨2, 5, "nm".toList, true⟩, ⟨2, 1 / 50, "m".toList, false⟩, ⟨2, 1 / 50, "m".toList, false⟩]

/-- Its numbers. -/
def scanFrames : List (List Rat) := [[0, 100, 200, 300], [400, 500, 600, 700], [1, 2, 3, 4], [65535, 9, 8, 7]]

/-- The file that is written. -/
def written (axes : List Ax) (t : DType) (frames : List (List Rat)) (s : Scaling) (stored : Option (DType × List Rat)) (nav : Nav) : Py (List UInt8) :=
  (writeSignal toUnits encNum (fun _ => 0) false tinyHeader [] axes t frames s stored nav).map Prod.fst

/-- The bytes that are read. -/
def bytesOf (axes : List Ax) (t : DType) (frames : List (List Rat)) (s : Scaling) (stored : Option (DType × List Rat)) (nav : Nav) : Py (List UInt8) := do
  let f ← written axes t frames s stored nav
  let r ← readFile false f
  return r.data

/-- The hypotheses of `C156_file_partial`, `C157_image_partial` and `C158_scales_partial` are met. -/
example : (bytesOf scanAxes (.int false 16) scanFrames (.range 0 510) none .auto).toOption = some [0, 50, 100, 150, 200, 250, 255, 255, 0, 1, 1, 2, 255, 4, 4, 3] ∧
    (∀ s ∈ [(.range 0 510 : Scaling), .dtype, .minmax, .crop], (written scanAxes (.int false 16) scanFrames s none .auto).toOption.map (fun f => (f.drop 240).take 4) ≠ none) ∧
    scanSizes scanAxes = [2, 2] ∧ Fine (.int false 16) scanFrames.flatten .dtype ∧ Fine (.int false 16) scanFrames.flatten .minmax := by
  refine ⟨by decide +kernel, by decide +kernel, by decide +kernel, ⟨false, 16, rfl, by decide⟩, 0, by simp [scanFrames], 100, by simp [scanFrames], by norm_num⟩

/-- A range in the wrong order makes all pixels white. -/
theorem C156_fails_reversed : (bytesOf scanAxes (.int false 16) scanFrames (.range 510 0) none .auto).toOption = some (List.replicate 16 255) := by decide +kernel

/-- Constant data are not mapped to the range by their minimum and maximum: they are cropped. -/
theorem C156_fails_constant : (bytesOf scanAxes (.int false 16) (List.replicate 4 [7, 7, 7, 7]) .minmax none .auto).toOption = some (List.replicate 16 7) := by decide +kernel

/-- Without scaling, 256 is written as 0. -/
theorem C156_fails_wrap : (bytesOf scanAxes (.int false 16) (List.replicate 4 [255, 256, 257, 300]) .plain none .none).toOption =
    some [255, 0, 1, 44, 255, 0, 1, 44, 255, 0, 1, 44, 255, 0, 1, 44] := by decide +kernel

/-- A line of two positions with patterns of 30 × 30 pixels. -/
def lineAxes : List Ax := [⟨2, 3, "nm".toList, true⟩, ⟨30, 1 / 50, "m".toList, false⟩, ⟨30, 1 / 50, "m".toList, false⟩]

/-- Without an image for navigation, a line is not written: the zeros have the shape of positions and rows of the pattern. -/
theorem C157_fails_line : written lineAxes (.int false 8) (List.replicate 2 (List.replicate 900 1)) .plain none .none = .error .valueError := by decide +kernel

/-- An image for navigation with one number for each position of a line is refused. -/
theorem C157_fails_line_array : written lineAxes (.int false 8) (List.replicate 2 (List.replicate 900 1)) .plain none (.array [2] .float [1, 1]) = .error .valueError := by decide +kernel

/-- An image of HyperSpy of another size is written all the same. -/
theorem C157_fails_stored : (written scanAxes (.int false 8) scanFrames .plain (some (.float, [9, 9])) .auto).toOption.map (fun f => (f.drop 240).take 4) = some [9, 9, 0, 0] := by
  decide +kernel

/-- When the same dictionary is written again, the scale of the patterns is converted again: 2 cm become 200 cm, whose inverse is no whole number. -/
theorem C158_fails_twice : ((writeSignal toUnits encNum (fun _ => 0) false tinyHeader [] scanAxes (.int false 8) scanFrames .plain none .auto).toOption.bind fun r =>
    (writeSignal toUnits encNum (fun _ => 0) false tinyHeader [] r.2 (.int false 8) scanFrames .plain none .auto).toOption.bind fun q =>
    (readFile false r.1).toOption.bind fun a => (readFile false q.1).toOption.map fun b => (a.header.sdp, b.header.sdp)) = some (50, 0) := by decide +kernel

/-- The axes that are read. -/
def axesOf (axes : List Ax) (n : Nat) : Option (List (String × String × Rat × Bool × Nat)) :=
  (written axes (.int false 8) (List.replicate n (List.replicate 4 1)) .plain none .auto).toOption.bind fun f =>
    (readFile false f).toOption.map fun r => axesRead (fun k => (k : Rat)) r.header r.shape

example : axesOf scanAxes 4 = some [("y", "nm", 3, true, 2), ("x", "nm", 5, true, 2), ("dy", "cm", 2, false, 2), ("dx", "cm", 2, false, 2)] := by decide +kernel

/-- In a line the rows of the patterns have the step of the scan, and are for navigation. -/
theorem C158_fails_line : axesOf [⟨3, 3, "nm".toList, true⟩, ⟨2, 1 / 50, "m".toList, false⟩, ⟨2, 1 / 50, "m".toList, false⟩] 3 =
    some [("y", "nm", 3, true, 3), ("x", "nm", 3, true, 2), ("dy", "cm", 2, false, 2)] := by decide +kernel

/-- A step of three metres is read as 1 cm. -/
theorem C158_fails_large : (axesOf [⟨2, 3, "nm".toList, true⟩, ⟨2, 5, "nm".toList, true⟩, ⟨2, 3, "m".toList, false⟩, ⟨2, 3, "m".toList, false⟩] 4).map
    (fun l => l.map fun a => a.2.2.1) = some [3, 5, 1, 1] := by decide +kernel

/-- Of two steps of the pattern that of the columns is read for both. -/
theorem C158_fails_two : (axesOf [⟨2, 3, "nm".toList, true⟩, ⟨2, 5, "nm".toList, true⟩, ⟨2, 1 / 100, "m".toList, false⟩, ⟨2, 1 / 50, "m".toList, false⟩] 4).map
    (fun l => l.map fun a => a.2.2.1) = some [3, 5, 2, 2] := by decide +kernel

/-- The camera length, in tenths of millimetres in the file and in millimetres in HyperSpy, is read in metres: 80 mm are read as 0.08. -/
theorem C158_fails_camera : ("Acquisition_instrument.TEM.camera_length", (8 / 100 : Rat)) ∈ mapped { tinyHeader with camLen := 800 } := by
  unfold mapped
  norm_num

end Verif.Props.BlockfileScale
