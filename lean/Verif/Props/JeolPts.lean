import Verif.Lemmas.JeolPts
import Mathlib.Data.List.Induction
import Mathlib.Tactic.FieldSimp
import Mathlib.Tactic.Linarith
import Mathlib.Tactic.Positivity
/-! C127: spectrum images of JEOL (`.pts`) in memory, from the file and the arguments to the array and its axes. -/
namespace Verif.Props.JeolPts
open Verif Verif.Jeol Verif.Props.Jeol

/-- Position after some words. -/
def endX (p : Par) (x : Int) (a : List Nat) : Int := match (valuesOf 8 a).getLast? with
  | none => x
  | some v => (v / p.wnorm : Nat) + p.dx
def endY (p : Par) (y : Int) (a : List Nat) : Int := match (valuesOf 9 a).getLast? with
  | none => y
  | some v => (v / p.hnorm : Nat) + p.dy

theorem valuesOf_cons (t w : Nat) (a : List Nat) : valuesOf t (w :: a) = if w / 4096 = t then (w % 4096) :: valuesOf t a else valuesOf t a := by
  unfold valuesOf
  rw [List.filter_cons]
  by_cases h : w / 4096 = t
  · rw [if_pos (by simpa using h), if_pos h, List.map_cons]
  · rw [if_neg (by simpa using h), if_neg h]

theorem endX_cons (p : Par) (x : Int) (w : Nat) (a : List Nat) :
    endX p x (w :: a) = if w / 4096 = 8 then endX p ((w % 4096 / p.wnorm : Nat) + p.dx) a else endX p x a := by
  unfold endX
  rw [valuesOf_cons]
  by_cases h : w / 4096 = 8
  · rw [if_pos h, if_pos h, List.getLast?_cons]
    cases (valuesOf 8 a).getLast? <;> rfl
  · rw [if_neg h, if_neg h]

theorem endY_cons (p : Par) (y : Int) (w : Nat) (a : List Nat) :
    endY p y (w :: a) = if w / 4096 = 9 then endY p ((w % 4096 / p.hnorm : Nat) + p.dy) a else endY p y a := by
  unfold endY
  rw [valuesOf_cons]
  by_cases h : w / 4096 = 9
  · rw [if_pos h, if_pos h, List.getLast?_cons]
    cases (valuesOf 9 a).getLast? <;> rfl
  · rw [if_neg h, if_neg h]

theorem eventsOf_append (p : Par) (b : List Nat) : ∀ (a : List Nat) (x y : Int),
    eventsOf p x y (a ++ b) = eventsOf p x y a ++ eventsOf p (endX p x a) (endY p y a) b
  | [], x, y => rfl
  | w :: a, x, y => by
    rw [List.cons_append, endX_cons, endY_cons]
    conv => lhs; unfold eventsOf
    conv => rhs; lhs; unfold eventsOf
    by_cases h8 : w / 4096 = 8
    · rw [if_pos h8, if_pos h8, if_pos h8, if_neg (by omega)]
      exact eventsOf_append p b a _ y
    · rw [if_neg h8, if_neg h8, if_neg h8]
      by_cases h9 : w / 4096 = 9
      · rw [if_pos h9, if_pos h9, if_pos h9]
        exact eventsOf_append p b a x _
      · rw [if_neg h9, if_neg h9, if_neg h9]
        by_cases h11 : w / 4096 = 11
        · rw [if_pos h11, if_pos h11]
          dsimp only
          split
          · rw [List.cons_append, eventsOf_append p b a x y]
          · exact eventsOf_append p b a x y
        · rw [if_neg h11, if_neg h11]
          exact eventsOf_append p b a x y

/-- The bin of a position word is that of its pixel in the scan. -/
theorem bin_eq {W d v : Nat} (hW : W ∣ 4096) (hW0 : 0 < W) : v / (4096 * d / W) = v * W / 4096 / d := by
  obtain ⟨q, hq⟩ := hW
  rw [hq, Nat.mul_assoc, Nat.mul_div_cancel_left _ hW0, Nat.mul_comm v W, Nat.mul_div_mul_left _ _ hW0, Nat.div_div_eq_div_mul]

/-- C127: the value of a pixel and channel for one frame is the number of its X-ray events whose row, column and channel (counted in the
scan, then binned and shifted) are these. -/
theorem C127_events (W H dw dh rebin : Nat) (aw ah n dy dx dz : Int) (hW : W ∣ 4096) (hH : H ∣ 4096) (a : List Nat) (hpos : Positioned a)
    (y x z : Int) (hy : 0 ≤ y ∧ y < ah) (hx : 0 ≤ x ∧ x < aw) (hz : 0 ≤ z ∧ z < n) :
    counts (scanPar W H dw dh rebin aw ah n dy dx dz) a y x z = (List.range a.length).countP (hit W H dw dh rebin dy dx dz y x z a) := by
  have hW0 : 0 < W := Nat.pos_of_dvd_of_pos hW (by decide)
  have hH0 : 0 < H := Nat.pos_of_dvd_of_pos hH (by decide)
  generalize hp : scanPar W H dw dh rebin aw ah n dy dx dz = p
  have e1 : p.wnorm = 4096 * dw / W := by rw [← hp]; rfl
  have e2 : p.hnorm = 4096 * dh / H := by rw [← hp]; rfl
  have e3 : p.rebin = rebin := by rw [← hp]; rfl
  have e4 : p.dx = dx ∧ p.dy = dy ∧ p.dz = dz ∧ p.width = aw ∧ p.height = ah ∧ p.channels = n := by rw [← hp]; exact ⟨rfl, rfl, rfl, rfl, rfl, rfl⟩
  unfold counts
  induction a using List.reverseRecOn with
  | nil => rfl
  | append_singleton a w ih =>
    have hpa : Positioned a := by
      intro i v hi
      have hlt : i < a.length := by
        rcases Nat.lt_or_ge i a.length with h | h
        · exact h
        · rw [List.getElem?_eq_none h] at hi; cases hi
      have := hpos i v (by rw [List.getElem?_append_left hlt]; exact hi)
      rwa [List.take_append_of_le_length (by omega)] at this
    rw [eventsOf_append, List.count_append, ih hpa, List.length_append, List.length_singleton, List.range_succ, List.countP_append]
    congr 1
    · apply List.countP_congr
      intro i hi
      have hlt := List.mem_range.1 hi
      unfold hit
      rw [List.getElem?_append_left hlt, List.take_append_of_le_length (by omega)]
    · rw [List.countP_singleton]
      have hw : (a ++ [w])[a.length]? = some w := by simp
      have ht : (a ++ [w]).take a.length = a := by simp
      have hlast := hpos a.length w hw
      rw [ht] at hlast
      by_cases h11 : w / 4096 = 11
      · obtain ⟨r1, r2⟩ := hlast h11
        obtain ⟨Y, hY⟩ : ∃ Y, (valuesOf 9 a).getLast? = some Y := ⟨_, List.getLast?_eq_getLast_of_ne_nil r1⟩
        obtain ⟨X, hX⟩ : ∃ X, (valuesOf 8 a).getLast? = some X := ⟨_, List.getLast?_eq_getLast_of_ne_nil r2⟩
        have x1 : endX p 0 a = ((X * W / 4096 / dw : Nat) : Int) + dx := by
          unfold endX; rw [hX]; dsimp only; rw [e1, e4.1, bin_eq hW hW0]
        have y1 : endY p 0 a = ((Y * H / 4096 / dh : Nat) : Int) + dy := by
          unfold endY; rw [hY]; dsimp only; rw [e2, e4.2.1, bin_eq hH hH0]
        have hv : hit W H dw dh rebin dy dx dz y x z (a ++ [w]) a.length = decide (w / 4096 = 11 ∧ ((Y * H / 4096 / dh : Nat) : Int) + dy = y ∧
            ((X * W / 4096 / dw : Nat) : Int) + dx = x ∧ ((w % 4096 / rebin : Nat) : Int) + dz = z) := by
          unfold hit
          rw [hw, ht, hY, hX]
        rw [x1, y1, hv]
        unfold eventsOf
        rw [if_neg (by omega), if_neg (by omega), if_pos h11]
        dsimp only
        rw [e3, e4.2.2.1, e4.2.2.2.1, e4.2.2.2.2.1, e4.2.2.2.2.2]
        generalize ((Y * H / 4096 / dh : Nat) : Int) + dy = y' at *
        generalize ((X * W / 4096 / dw : Nat) : Int) + dx = x' at *
        generalize ((w % 4096 / rebin : Nat) : Int) + dz = z' at *
        by_cases hc : y' = y ∧ x' = x ∧ z' = z
        · obtain ⟨rfl, rfl, rfl⟩ := hc
          rw [if_pos ⟨hx, hy, hz⟩]
          simp [h11, eventsOf]
        · rw [if_neg (show ¬ (decide (w / 4096 = 11 ∧ y' = y ∧ x' = x ∧ z' = z) = true) from fun hd => hc (of_decide_eq_true hd).2)]
          split
          · unfold eventsOf
            rw [List.count_singleton, if_neg]
            intro hd
            have hd := beq_iff_eq.1 hd
            simp only [Prod.mk.injEq] at hd
            exact hc hd
          · unfold eventsOf
            rfl
      · have hz : eventsOf p (endX p 0 a) (endY p 0 a) [w] = [] := by
          unfold eventsOf
          by_cases h8 : w / 4096 = 8
          · rw [if_pos h8]; rfl
          · rw [if_neg h8]
            by_cases h9 : w / 4096 = 9
            · rw [if_pos h9]; rfl
            · rw [if_neg h9, if_neg h11]; rfl
        have hv : hit W H dw dh rebin dy dx dz y x z (a ++ [w]) a.length = false := by
          unfold hit
          rw [hw, ht]
          cases (valuesOf 9 a).getLast? <;> cases (valuesOf 8 a).getLast? <;> simp [h11]
        rw [hz, hv]
        rfl

/-- The largest and smallest shifts of the frames that are wanted, and the size of the area that all of them have. -/
structure Area (o : Opts) (sweep w h : Nat) (oy ox : Int) (ah aw : Int) : Prop where
  maxY : IsMax ((wanted o sweep).map fun k => (shiftOf o k).1) oy
  maxX : IsMax ((wanted o sweep).map fun k => (shiftOf o k).2.1) ox
  rows : ∃ ly, IsMin ((wanted o sweep).map fun k => (shiftOf o k).1) ly ∧ ah = (h : Int) + ly - oy
  cols : ∃ lx, IsMin ((wanted o sweep).map fun k => (shiftOf o k).2.1) lx ∧ aw = (w : Int) + lx - ox

theorem isMax_unique {l : List Int} {a b : Int} (h1 : IsMax l a) (h2 : IsMax l b) : a = b := le_antisymm (h2.2 a h1.1) (h1.2 b h2.1)
theorem isMin_unique {l : List Int} {a b : Int} (h1 : IsMin l a) (h2 : IsMin l b) : a = b := le_antisymm (h1.2 b h2.1) (h2.2 a h1.1)

theorem shifts_map {h : PtsHeader} {o : Opts} {W H dw dh : Nat} {s : Setup} (hs : SetupOk h o W H dw dh s) (f : Int × Int × Int → Int) :
    (shiftsOf s.shifts s.frames).map f = (wanted o h.sweep).map fun k => f (shiftOf o k) := by
  unfold shiftsOf
  rw [List.map_map, ← hs.frames]
  apply List.map_congr_left
  intro k hk
  exact congrArg f (hs.shifts k hk)

theorem area_ok {h : PtsHeader} {o : Opts} {W H dw dh : Nat} {s : Setup} (hs : SetupOk h o W H dw dh s) {oy ox ah aw : Int}
    (ha : Area o h.sweep (W / dw) (H / dh) oy ox ah aw) : maxShift s = (oy, ox) ∧ areaWidth s = aw ∧ areaHeight s = ah := by
  have hne : (wanted o h.sweep) ≠ [] := by rw [← hs.frames]; exact hs.some
  have hne' : ∀ f : Nat → Int, (wanted o h.sweep).map f ≠ [] := fun f hc => hne (List.map_eq_nil_iff.1 hc)
  have m1 : maxOf ((wanted o h.sweep).map fun k => (shiftOf o k).1) = oy := isMax_unique (maxOf_isMax _ (hne' _)) ha.maxY
  have m2 : maxOf ((wanted o h.sweep).map fun k => (shiftOf o k).2.1) = ox := isMax_unique (maxOf_isMax _ (hne' _)) ha.maxX
  obtain ⟨ly, l1, l2⟩ := ha.rows
  obtain ⟨lx, l3, l4⟩ := ha.cols
  have m3 : minOf ((wanted o h.sweep).map fun k => (shiftOf o k).1) = ly := isMin_unique (minOf_isMin _ (hne' _)) l1
  have m4 : minOf ((wanted o h.sweep).map fun k => (shiftOf o k).2.1) = lx := isMin_unique (minOf_isMin _ (hne' _)) l3
  have hm : maxShift s = (oy, ox) := by
    unfold maxShift
    rw [shifts_map hs (fun t => t.1), shifts_map hs (fun t => t.2.1), m1, m2]
  have hmin : minShift s = (ly, lx) := by
    unfold minShift
    rw [shifts_map hs (fun t => t.1), shifts_map hs (fun t => t.2.1), m3, m4]
  refine ⟨hm, ?_, ?_⟩
  · unfold areaWidth
    rw [hm, hmin, hs.width, l4]
    dsimp only
    omega
  · unfold areaHeight
    rw [hm, hmin, hs.height, l2]
    dsimp only
    omega

theorem down_unique {d : Down} {a b a' b' : Nat} (h1 : DownIs d a b) (h2 : DownIs d a' b') : a' = a ∧ b' = b := by
  cases h1 <;> cases h2 <;> exact ⟨rfl, rfl⟩

/-- The number of channels: all of them, or those until the cut-off within half a channel. -/
def Channels (h : PtsHeader) (o : Opts) (n : Int) : Prop :=
  (o.cutoff = none → n = (4096 / o.rebin : Nat)) ∧
    ∀ kv, o.cutoff = some kv → |h.coefB - h.coefA * h.digZ + (n : Rat) * (h.coefA * o.rebin) - kv| ≤ |h.coefA * o.rebin| / 2

theorem channels_ok {h : PtsHeader} {o : Opts} {W H dw dh : Nat} {s : Setup} (hs : SetupOk h o W H dw dh s) : Channels h o s.channels := by
  have hc := hs.channels
  unfold channelNumber at hc
  rw [if_neg (by have := hs.rebin0; omega)] at hc
  constructor
  · intro hn
    rw [hn] at hc
    exact (Except.ok.inj hc).symm
  · intro kv hk
    rw [hk] at hc
    dsimp only at hc
    split at hc
    · cases hc
    · rename_i h0
      have hc := Except.ok.inj hc
      rw [hs.offset, hs.scale] at hc
      rw [hs.scale] at h0
      generalize h.coefA * (o.rebin : Rat) = sc at *
      generalize h.coefB - h.coefA * h.digZ = off at *
      have he := roundEven_err ((kv - off) / sc)
      rw [hc] at he
      have e2 : off + (s.channels : Rat) * sc - kv = ((s.channels : Rat) - (kv - off) / sc) * sc := by
        field_simp
        ring
      rw [e2, abs_mul]
      have := mul_le_mul_of_nonneg_right he (abs_nonneg sc)
      linarith

theorem sane {h : PtsHeader} {o : Opts} {W H dw dh : Nat} {s : Setup} (hs : SetupOk h o W H dw dh s) (hm : 0 < o.maxv)
    (hw : 0 < areaWidth s) (hh : 0 < areaHeight s) (k : Nat) : Sane (framePar s o h.sweep k) := by
  refine ⟨hw, hh, ?_, hm⟩
  show s.hnorm ≤ 4096
  rw [hs.hnorm]
  have := Nat.le_of_dvd hs.H0 hs.dhH
  rw [Nat.div_le_iff_le_mul_add_pred hs.H0]
  nlinarith

/-- The bins of a frame that is wanted. -/
theorem frame_congr {h : PtsHeader} {o : Opts} {W H dw dh : Nat} {s : Setup} (hs : SetupOk h o W H dw dh s) {oy ox ah aw : Int}
    (ha : Area o h.sweep (W / dw) (H / dh) oy ox ah aw) {k : Nat} (hk : k ∈ wanted o h.sweep) (a : List Nat) :
    let p := scanPar W H dw dh o.rebin aw ah s.channels ((shiftOf o k).1 - oy) ((shiftOf o k).2.1 - ox) (shiftOf o k).2.2
    counts (framePar s o h.sweep k) a = counts p a ∧ (Accepted (framePar s o h.sweep k) o.onlyValid a ↔ Taken p o.onlyValid a) := by
  intro p
  obtain ⟨a1, a2, a3⟩ := area_ok hs ha
  have hsh := hs.shifts k (by rw [hs.frames]; exact hk)
  have e7 : (framePar s o h.sweep k).dx = p.dx := by
    show (s.shifts.getD k (0, 0, 0)).2.1 - (maxShift s).2 = _
    rw [hsh, a1]
    rfl
  have e8 : (framePar s o h.sweep k).dy = p.dy := by
    show (s.shifts.getD k (0, 0, 0)).1 - (maxShift s).1 = _
    rw [hsh, a1]
    rfl
  have e9 : (framePar s o h.sweep k).dz = p.dz := by
    show (s.shifts.getD k (0, 0, 0)).2.2 = _
    rw [hsh]
    rfl
  have ev := fun x y => eventsOf_congr (p := framePar s o h.sweep k) (q := p) a2 a3 rfl hs.wnorm hs.hnorm rfl e7 e8 e9 a x y
  have em := fun x y => emEventsOf_congr (p := framePar s o h.sweep k) (q := p) a2 a3 hs.wnorm hs.hnorm e7 e8 a x y
  constructor
  · unfold counts
    rw [ev]
  · unfold Accepted Taken Complete
    rw [em, show (framePar s o h.sweep k).hnorm = p.hnorm from hs.hnorm, show (framePar s o h.sweep k).wnorm = p.wnorm from hs.wnorm]

theorem sumCounts_eq {h : PtsHeader} {o : Opts} {W H dw dh : Nat} {s : Setup} (hs : SetupOk h o W H dw dh s) {oy ox ah aw : Int}
    (ha : Area o h.sweep (W / dw) (H / dh) oy ox ah aw) (fs : List (List Nat)) (y x z : Int) : ∀ (ks : List Nat), (∀ k ∈ ks, k ∈ wanted o h.sweep) →
    sumCounts (framePar s o h.sweep) fs y x z ks = sumOver (fun k => counts (scanPar W H dw dh o.rebin aw ah s.channels
      ((shiftOf o k).1 - oy) ((shiftOf o k).2.1 - ox) (shiftOf o k).2.2) (fs.getD k []) y x z) ks
  | [], _ => rfl
  | k :: ks, hk => by
    unfold sumCounts sumOver
    rw [(frame_congr hs ha (hk k List.mem_cons_self) _).1, sumCounts_eq hs ha fs y x z ks fun j hj => hk j (List.mem_cons_of_mem _ hj)]
    rfl

theorem slice_area {n : Nat} {a : Int} (h0 : 0 < a) (h1 : a ≤ n) : (sliceLen n a : Int) = a := by
  unfold sliceLen
  rw [if_neg (by omega)]
  omega

theorem area_le {o : Opts} {sweep w h : Nat} {oy ox ah aw : Int} (ha : Area o sweep w h oy ox ah aw) : ah ≤ h ∧ aw ≤ w := by
  obtain ⟨ly, l1, l2⟩ := ha.rows
  obtain ⟨lx, l3, l4⟩ := ha.cols
  have := l1.2 _ ha.maxY.1
  have := l3.2 _ ha.maxX.1
  omega

/-- C127 (`sum_frames`): for every stream and all arguments: if the file is read, the spectrum image has the rows, columns and channels that
the frames have in common, and the value of each is the sum of the events of the wanted frames, moved by their shifts, until one
that is absent or incomplete. -/
theorem C127_sum (h : PtsHeader) (o : Opts) (raw : List Nat) (fs : List (List Nat)) (W H dw dh : Nat) (oy ox ah aw : Int) (s : PtsSignal)
    (hp : h.pixels = decChars W ++ 'x' :: decChars H) (hf : Frames raw fs) (hst : RightStarts o fs) (hd : DownIs o.down dw dh)
    (ha : Area o h.sweep (W / dw) (H / dh) oy ox ah aw) (h0 : 0 < ah ∧ 0 < aw) (hm : 0 < o.maxv) (hsum : o.sumFrames = true)
    (hr : readPts h o raw = .ok s) :
    ∃ (m : Map) (n : Nat) (ch : Int), s.maps = [m] ∧ s.shape = [ah, aw, ch] ∧ Channels h o ch ∧
      let frame := fun k => scanPar W H dw dh o.rebin aw ah ch ((shiftOf o k).1 - oy) ((shiftOf o k).2.1 - ox) (shiftOf o k).2.2
      (∀ y x z, m y x z = sumOver (fun k => counts (frame k) (fs.getD k []) y x z) ((wanted o h.sweep).take n)) ∧
      (∀ k ∈ (wanted o h.sweep).take n, Taken (frame k) o.onlyValid (fs.getD k [])) ∧
      (∀ k, (wanted o h.sweep)[n]? = some k → ¬ Taken (frame k) o.onlyValid (fs.getD k [])) := by
  unfold readPts at hr
  obtain ⟨t, hs, hr⟩ := bind_ok' hr
  obtain ⟨dw', dh', hs⟩ := setup_ok hp hs
  obtain ⟨rfl, rfl⟩ := down_unique hs.down hd
  obtain ⟨a1, a2, a3⟩ := area_ok hs ha
  obtain ⟨b1, b2⟩ := area_le ha
  by_cases hmag : h.mag = 0
  · rw [if_pos hmag] at hr; cases hr
  rw [if_neg hmag] at hr
  by_cases hneg : t.channels < 0
  · rw [if_pos hneg] at hr; cases hr
  rw [if_neg hneg] at hr
  dsimp only at hr
  rw [if_pos hsum] at hr
  obtain ⟨⟨m, e⟩, h1, hr⟩ := bind_ok' hr
  obtain rfl := Except.ok.inj hr
  obtain ⟨n, hn0, hn, hlt⟩ := hs.starts
  obtain ⟨t1, t2⟩ := startTable_ok o n fs hn0 hst
  rw [hn] at h1
  obtain ⟨c, c1, c2, c3⟩ := C45_sum hf (framePar t o h.sweep) o.maxv (if o.sumFrames = true ∧ 16 ≤ h.sweep then 2 ^ 32 else 2 ^ 16)
    (fun k => ⟨sane hs hm (by omega) (by omega) k, rfl, rfl⟩) o.onlyValid t.frames (startTable o n) emptyMap m emptyEm e t1
    (fun k hk => lt_of_lt_of_le (hlt k hk) t2) (fun _ _ _ => hm) (fun _ _ => by unfold emptyEm; split <;> decide) h1
  rw [hs.frames] at c1 c2 c3
  refine ⟨m, c, t.channels, rfl, ?_, channels_ok hs, ?_, ?_, ?_⟩
  · dsimp only
    rw [slice_area (by omega) (by rw [a3, hs.height]; exact b1), slice_area (by omega) (by rw [a2, hs.width]; exact b2), a2, a3]
  · intro y x z
    rw [(c1 y x z).1, sumCounts_eq hs ha fs y x z _ fun k hk => List.mem_of_mem_take hk]
    show 0 + _ = _
    rw [Nat.zero_add]
  · intro k hk
    exact (frame_congr hs ha (List.mem_of_mem_take hk) _).2.1 (c2 k hk)
  · intro k hk hc
    exact c3 k hk ((frame_congr hs ha (List.mem_of_getElem? hk) _).2.2 hc)

/-- C127 (frames one by one): each map has the events of one wanted frame, in the order of the list, until one that is absent or
incomplete. -/
theorem C127_frames (h : PtsHeader) (o : Opts) (raw : List Nat) (fs : List (List Nat)) (W H dw dh : Nat) (oy ox ah aw : Int) (s : PtsSignal)
    (hp : h.pixels = decChars W ++ 'x' :: decChars H) (hf : Frames raw fs) (hst : RightStarts o fs) (hd : DownIs o.down dw dh)
    (ha : Area o h.sweep (W / dw) (H / dh) oy ox ah aw) (h0 : 0 < ah ∧ 0 < aw) (hm : 0 < o.maxv) (hsum : o.sumFrames = false)
    (hr : readPts h o raw = .ok s) :
    ∃ (n : Nat) (ch : Int), n ≤ (wanted o h.sweep).length ∧ s.shape = [(n : Int), ah, aw, ch] ∧ Channels h o ch ∧
      let frame := fun k => scanPar W H dw dh o.rebin aw ah ch ((shiftOf o k).1 - oy) ((shiftOf o k).2.1 - ox) (shiftOf o k).2.2
      s.maps = ((wanted o h.sweep).take n).map (fun k => counts (frame k) (fs.getD k [])) ∧
      (∀ k ∈ (wanted o h.sweep).take n, Taken (frame k) o.onlyValid (fs.getD k [])) ∧
      (∀ k, (wanted o h.sweep)[n]? = some k → ¬ Taken (frame k) o.onlyValid (fs.getD k [])) := by
  unfold readPts at hr
  obtain ⟨t, hs, hr⟩ := bind_ok' hr
  obtain ⟨dw', dh', hs⟩ := setup_ok hp hs
  obtain ⟨rfl, rfl⟩ := down_unique hs.down hd
  obtain ⟨a1, a2, a3⟩ := area_ok hs ha
  obtain ⟨b1, b2⟩ := area_le ha
  by_cases hmag : h.mag = 0
  · rw [if_pos hmag] at hr; cases hr
  rw [if_neg hmag] at hr
  by_cases hneg : t.channels < 0
  · rw [if_pos hneg] at hr; cases hr
  rw [if_neg hneg] at hr
  dsimp only at hr
  rw [if_neg (by rw [hsum]; decide)] at hr
  obtain ⟨⟨ms, idx⟩, h1, hr⟩ := bind_ok' hr
  obtain rfl := Except.ok.inj hr
  unfold loadFrames at h1
  obtain ⟨n, hn0, hn, hlt⟩ := hs.starts
  obtain ⟨t1, t2⟩ := startTable_ok o n fs hn0 hst
  rw [hn] at h1
  cases hcf : cubeFrames (framePar t o h.sweep) o.onlyValid raw (t.frames.take (h.sweep + 1)) (startTable o n) with
  | error e => rw [hcf] at h1; cases h1
  | ok r =>
    obtain ⟨ms', idx'⟩ := r
    rw [hcf] at h1
    dsimp only at h1
    split at h1
    · cases h1
    rename_i hlen
    obtain ⟨rfl, rfl⟩ := Prod.mk.inj (Except.ok.inj h1)
    obtain ⟨-, c1, c2, c3⟩ := C43_frames hf (framePar t o h.sweep) (fun k => sane hs hm (by omega) (by omega) k) o.onlyValid _ _ _ _ t1
      (fun k hk => lt_of_lt_of_le (hlt k (List.mem_of_mem_take hk)) t2) hcf
    have hle : ms'.length ≤ (t.frames.take (h.sweep + 1)).length := by
      have := congrArg List.length c1
      rw [List.length_map, List.length_take] at this
      omega
    rw [List.length_take] at hle
    have htt : (t.frames.take (h.sweep + 1)).take ms'.length = (wanted o h.sweep).take ms'.length := by
      rw [List.take_take, Nat.min_eq_left (by omega), hs.frames]
    rw [htt] at c1 c2
    refine ⟨ms'.length, t.channels, by rw [← hs.frames]; omega, ?_, channels_ok hs, ?_, ?_, ?_⟩
    · dsimp only
      rw [slice_area (by omega) (by rw [a3, hs.height]; exact b1), slice_area (by omega) (by rw [a2, hs.width]; exact b2), a2, a3]
    · dsimp only
      refine c1.trans ?_
      apply List.map_congr_left
      intro k hk
      exact (frame_congr hs ha (List.mem_of_mem_take hk) _).1
    · intro k hk
      exact (frame_congr hs ha (List.mem_of_mem_take hk) _).2.1 (c2 k hk)
    · intro k hk hc
      refine c3 k ?_ ((frame_congr hs ha (List.mem_of_getElem? hk) _).2.2 hc)
      rw [List.getElem?_take, if_pos, hs.frames]
      · exact hk
      · have : ms'.length < (wanted o h.sweep).length := by
          rcases Nat.lt_or_ge ms'.length (wanted o h.sweep).length with h | h
          · exact h
          · rw [List.getElem?_eq_none h] at hk; cases hk
        rw [← hs.frames] at this
        omega

theorem cubeFrames_length (par : Nat → Par) (onlyValid : Bool) (raw : List Nat) : ∀ (ks : List Nat) (idx : List (Option Nat)) (ms : List Map)
    (idx' : List (Option Nat)), cubeFrames par onlyValid raw ks idx = .ok (ms, idx') → ms.length ≤ ks.length
  | [], idx, ms, idx', h => by
    obtain ⟨rfl, -⟩ := Prod.mk.inj (Except.ok.inj h)
    exact Nat.le_refl _
  | k :: ks, idx, ms, idx', h => by
    unfold cubeFrames at h
    split at h
    · cases h
    split at h
    · cases h
    split at h
    · obtain ⟨rfl, -⟩ := Prod.mk.inj (Except.ok.inj h)
      simp
    split at h
    · split at h
      · cases h
      · rename_i hc
        obtain ⟨rfl, -⟩ := Prod.mk.inj (Except.ok.inj h)
        have := cubeFrames_length par onlyValid raw _ _ _ _ hc
        rw [List.length_cons, List.length_cons]
        omega
    · obtain ⟨rfl, -⟩ := Prod.mk.inj (Except.ok.inj h)
      simp

theorem wanted_all {o : Opts} (sweep : Nat) (hfr : o.frames = none) (hsh : o.shifts = none) : wanted o sweep = List.range (sweep + 1) := by
  unfold wanted
  rw [hfr]
  apply List.filter_eq_self.2
  intro k hk
  unfold keepFrame
  rw [hsh]
  simpa using Nat.lt_succ_iff.1 (List.mem_range.1 hk)

theorem isMax_const {α : Type} {l : List α} (h : l ≠ []) (c : Int) : IsMax (l.map fun _ => c) c ∧ IsMin (l.map fun _ => c) c := by
  obtain ⟨a, ha⟩ := List.exists_mem_of_ne_nil l h
  refine ⟨⟨List.mem_map.2 ⟨a, ha, rfl⟩, ?_⟩, ⟨List.mem_map.2 ⟨a, ha, rfl⟩, ?_⟩⟩ <;>
  · intro u hu
    obtain ⟨_, -, rfl⟩ := List.mem_map.1 hu
    exact le_refl _

/-- Without shifts the area is the whole map. -/
theorem area_plain {o : Opts} (sweep w h : Nat) (hne : wanted o sweep ≠ []) (hsh : o.shifts = none) : Area o sweep w h 0 0 h w := by
  have e : ∀ k, shiftOf o k = (0, 0, 0) := by
    intro k
    unfold shiftOf
    rw [hsh]
  obtain ⟨c1, c2⟩ := isMax_const hne 0
  constructor
  · simp only [e]; exact c1
  · simp only [e]; exact c1
  · exact ⟨0, by simp only [e]; exact c2, by omega⟩
  · exact ⟨0, by simp only [e]; exact c2, by omega⟩

/-- C127: without a list of frames and shifts, all events of all frames are counted when the frames are complete and not more than the
header says (and one). -/
theorem C127_all (h : PtsHeader) (o : Opts) (raw : List Nat) (fs : List (List Nat)) (W H dw dh : Nat) (s : PtsSignal)
    (hp : h.pixels = decChars W ++ 'x' :: decChars H) (hf : Frames raw fs) (hst : RightStarts o fs) (hd : DownIs o.down dw dh)
    (hW : W ∣ 4096) (hH : H ∣ 4096) (hfr : o.frames = none) (hsh : o.shifts = none) (hcut : o.cutoff = none) (hm : 0 < o.maxv)
    (hsum : o.sumFrames = true) (hlen : fs.length ≤ h.sweep + 1) (hpos : ∀ a ∈ fs, Positioned a)
    (hcomp : ∀ a ∈ fs, Complete (scanPar W H dw dh o.rebin (W / dw : Nat) (H / dh : Nat) (4096 / o.rebin : Nat) 0 0 0) a)
    (hr : readPts h o raw = .ok s) :
    ∃ m : Map, s.maps = [m] ∧ s.shape = [((H / dh : Nat) : Int), ((W / dw : Nat) : Int), ((4096 / o.rebin : Nat) : Int)] ∧
      ∀ y x z : Nat, y < H / dh → x < W / dw → z < 4096 / o.rebin →
        m y x z = (fs.map fun a => (List.range a.length).countP (hit W H dw dh o.rebin 0 0 0 y x z a)).sum := by
  have hwant := wanted_all h.sweep hfr hsh
  have hpos' : 0 < H / dh ∧ 0 < W / dw := by
    have hr' := hr
    unfold readPts at hr'
    obtain ⟨t, hs, -⟩ := bind_ok' hr'
    obtain ⟨dw', dh', hs⟩ := setup_ok hp hs
    obtain ⟨rfl, rfl⟩ := down_unique hs.down hd
    exact ⟨Nat.div_pos (Nat.le_of_dvd hs.H0 hs.dhH) hs.dh0, Nat.div_pos (Nat.le_of_dvd hs.W0 hs.dwW) hs.dw0⟩
  have hne : wanted o h.sweep ≠ [] := by rw [hwant]; simp
  obtain ⟨m, n, ch, s1, s2, s3, s4, s5, s6⟩ := C127_sum h o raw fs W H dw dh 0 0 _ _ s hp hf hst hd
    (area_plain h.sweep (W / dw) (H / dh) hne hsh) (by omega) hm hsum hr
  obtain rfl := s3.1 hcut
  have hshift : ∀ k, shiftOf o k = (0, 0, 0) := by intro k; unfold shiftOf; rw [hsh]
  simp only [hshift, Int.sub_zero] at s4 s5 s6
  rw [hwant] at s4 s5 s6
  refine ⟨m, s1, s2, ?_⟩
  intro y x z hy hx hz
  rw [s4]
  -- the frames that are read are all frames
  have hn : (List.range (h.sweep + 1)).take n = List.range fs.length := by
    rw [List.take_range]
    congr 1
    have up : min n (h.sweep + 1) ≤ fs.length := by
      apply Nat.le_of_not_lt
      intro hc
      have := (s5 fs.length (by rw [List.take_range]; exact List.mem_range.2 hc)).1
      rw [List.getD_eq_getElem?_getD, List.getElem?_eq_none (Nat.le_refl _)] at this
      exact this rfl
    have low : fs.length ≤ min n (h.sweep + 1) := by
      apply Nat.le_of_not_lt
      intro hc
      have hn : n < h.sweep + 1 := by omega
      have hnf : n < fs.length := by omega
      refine s6 n (by rw [List.getElem?_range hn]) ?_
      have hmem : fs.getD n [] ∈ fs := by
        rw [List.getD_eq_getElem?_getD, List.getElem?_eq_getElem hnf]
        exact List.getElem_mem hnf
      refine ⟨?_, fun _ => hcomp _ hmem⟩
      intro he
      have := (hcomp _ hmem).1
      rw [he] at this
      obtain ⟨_, h1, -⟩ := this
      cases h1
    omega
  rw [hn]
  unfold sumOver
  have hmap : fs = (List.range fs.length).map fun k => fs.getD k [] := by
    apply List.ext_getElem
    · simp
    · intro i h1 h2
      simp [List.getD_eq_getElem?_getD, List.getElem?_eq_getElem h1]
  conv => rhs; rw [hmap]
  rw [List.map_map]
  congr 1
  apply List.map_congr_left
  intro k hk
  have hmem : fs.getD k [] ∈ fs := by
    have hk := List.mem_range.1 hk
    rw [List.getD_eq_getElem?_getD, List.getElem?_eq_getElem hk]
    exact List.getElem_mem hk
  exact C127_events W H dw dh o.rebin _ _ _ 0 0 0 hW hH _ (hpos _ hmem) y x z (by omega) (by omega) (by omega)

/-- C127, axes of rows, columns and energy: their sizes are those of the array; the pixels together are the whole field of view, whatever
the bins; the energy of every channel of the detector is inside the channel of the spectrum that counts it. Missing: the
origin when frames are shifted, and that a cut-off is not above the range (see the counterexamples). -/
theorem C127_axes_partial (h : PtsHeader) (o : Opts) (raw : List Nat) (W H dw dh : Nat) (s : PtsSignal)
    (hp : h.pixels = decChars W ++ 'x' :: decChars H) (hd : DownIs o.down dw dh) (hA : 0 < h.coefA) (hr : readPts h o raw = .ok s) :
    ∃ pre ay ax ae sz ny nx nz, s.axes = pre ++ [ay, ax, ae] ∧ s.shape = sz ++ [ny, nx, nz] ∧ pre.length = sz.length ∧
      (o.sumFrames = true → pre = []) ∧
      ay.name = "y".toList ∧ ax.name = "x".toList ∧ ae.name = "Energy".toList ∧ (ay.size, ax.size, ae.size) = (ny, nx, nz) ∧
      (ay.navigate, ax.navigate, ae.navigate) = (true, true, false) ∧
      ax.scale * ((W / dw : Nat) : Rat) = h.scanSize / h.mag * 1000 ∧ ay.scale * ((H / dh : Nat) : Rat) = h.scanSize / h.mag * 1000 ∧
      (o.shifts = none → ax.offset = 0 ∧ ay.offset = 0) ∧
      ∀ E : Nat, ae.offset + ae.scale * ((E / o.rebin : Nat) : Rat) ≤ h.coefB + h.coefA * ((E : Rat) - h.digZ) ∧
        h.coefB + h.coefA * ((E : Rat) - h.digZ) < ae.offset + ae.scale * (((E / o.rebin : Nat) : Rat) + 1) := by
  unfold readPts at hr
  obtain ⟨t, hs, hr⟩ := bind_ok' hr
  obtain ⟨dw', dh', hs⟩ := setup_ok hp hs
  obtain ⟨rfl, rfl⟩ := down_unique hs.down hd
  have hw0 : (t.width : Rat) ≠ 0 := by
    rw [hs.width]
    have := Nat.div_pos (Nat.le_of_dvd hs.W0 hs.dwW) hs.dw0
    exact_mod_cast Nat.pos_iff_ne_zero.1 this
  have hh0 : (t.height : Rat) ≠ 0 := by
    rw [hs.height]
    have := Nat.div_pos (Nat.le_of_dvd hs.H0 hs.dhH) hs.dh0
    exact_mod_cast Nat.pos_iff_ne_zero.1 this
  have en : ∀ E : Nat, t.offset + t.scale * ((E / o.rebin : Nat) : Rat) ≤ h.coefB + h.coefA * ((E : Rat) - h.digZ) ∧
        h.coefB + h.coefA * ((E : Rat) - h.digZ) < t.offset + t.scale * (((E / o.rebin : Nat) : Rat) + 1) := by
    intro E
    rw [hs.offset, hs.scale]
    have h1 : o.rebin * (E / o.rebin) ≤ E := Nat.mul_div_le E o.rebin
    have h2 : E < o.rebin * (E / o.rebin) + o.rebin := by
      have := Nat.lt_mul_div_succ E hs.rebin0
      rw [Nat.mul_add, Nat.mul_one] at this
      exact this
    have h1' : (o.rebin : Rat) * ((E / o.rebin : Nat) : Rat) ≤ (E : Rat) := by exact_mod_cast h1
    have h2' : (E : Rat) < (o.rebin : Rat) * ((E / o.rebin : Nat) : Rat) + o.rebin := by exact_mod_cast h2
    have g1 := mul_le_mul_of_nonneg_left h1' hA.le
    have g2 := mul_lt_mul_of_pos_left h2' hA
    constructor
    · linarith
    · nlinarith
  have org : o.shifts = none → maxShift t = (0, 0) := by
    intro hsh
    have hne : wanted o h.sweep ≠ [] := by rw [← hs.frames]; exact hs.some
    exact (area_ok hs (area_plain h.sweep _ _ hne hsh)).1
  by_cases hmag : h.mag = 0
  · rw [if_pos hmag] at hr; cases hr
  rw [if_neg hmag] at hr
  by_cases hneg : t.channels < 0
  · rw [if_pos hneg] at hr; cases hr
  rw [if_neg hneg] at hr
  dsimp only at hr
  by_cases hsum : o.sumFrames = true
  · rw [if_pos hsum] at hr
    obtain ⟨⟨m, e⟩, h1, hr⟩ := bind_ok' hr
    obtain rfl := Except.ok.inj hr
    refine ⟨[], _, _, _, [], _, _, _, rfl, rfl, rfl, fun _ => rfl, rfl, rfl, rfl, rfl, rfl, ?_, ?_, ?_, en⟩
    · rw [← hs.width]; exact div_mul_cancel₀ _ hw0
    · rw [← hs.height]; exact div_mul_cancel₀ _ hh0
    · intro hsh
      have := org hsh
      dsimp only
      rw [this]
      exact ⟨rfl, rfl⟩
  · rw [if_neg hsum] at hr
    obtain ⟨⟨ms, e⟩, h1, hr⟩ := bind_ok' hr
    obtain rfl := Except.ok.inj hr
    refine ⟨[_], _, _, _, [_], _, _, _, rfl, rfl, rfl, fun hc => absurd hc hsum, rfl, rfl, rfl, rfl, rfl, ?_, ?_, ?_, en⟩
    · rw [← hs.width]; exact div_mul_cancel₀ _ hw0
    · rw [← hs.height]; exact div_mul_cancel₀ _ hh0
    · intro hsh
      have := org hsh
      dsimp only
      rw [this]
      exact ⟨rfl, rfl⟩

/-- C127, the axis of frames: without a list of frames its size is the number of frames; its scale is the time of a frame if
nothing is downsampled. Missing: lists of frames, and downsampling (see the counterexamples). -/
theorem C127_frame_axis_partial (h : PtsHeader) (o : Opts) (raw : List Nat) (W H : Nat) (s : PtsSignal)
    (hp : h.pixels = decChars W ++ 'x' :: decChars H) (hd : DownIs o.down 1 1) (hfr : o.frames = none) (hsh : o.shifts = none)
    (hsum : o.sumFrames = false) (hr : readPts h o raw = .ok s) :
    ∃ a rest, s.axes = a :: rest ∧ a.name = "Frame".toList ∧ a.navigate = true ∧ a.offset = 0 ∧ a.size = s.maps.length ∧
      s.shape.head? = some a.size ∧ a.scale = h.dwell * ((W * H : Nat) : Rat) / 1000 := by
  unfold readPts at hr
  obtain ⟨t, hs, hr⟩ := bind_ok' hr
  obtain ⟨dw', dh', hs⟩ := setup_ok hp hs
  obtain ⟨rfl, rfl⟩ := down_unique hd hs.down
  by_cases hmag : h.mag = 0
  · rw [if_pos hmag] at hr; cases hr
  rw [if_neg hmag] at hr
  by_cases hneg : t.channels < 0
  · rw [if_pos hneg] at hr; cases hr
  rw [if_neg hneg] at hr
  dsimp only at hr
  rw [if_neg (by rw [hsum]; decide)] at hr
  obtain ⟨⟨ms, idx⟩, h1, hr⟩ := bind_ok' hr
  obtain rfl := Except.ok.inj hr
  have hwant := wanted_all h.sweep hfr hsh
  have hms : ms.length ≤ h.sweep + 1 := by
    unfold loadFrames at h1
    cases hcf : cubeFrames (framePar t o h.sweep) o.onlyValid raw (t.frames.take (h.sweep + 1)) t.starts with
    | error e => rw [hcf] at h1; cases h1
    | ok r =>
      obtain ⟨ms', idx'⟩ := r
      rw [hcf] at h1
      dsimp only at h1
      split at h1
      · cases h1
      · obtain ⟨rfl, rfl⟩ := Prod.mk.inj (Except.ok.inj h1)
        have := cubeFrames_length _ _ _ _ _ _ _ hcf
        rw [List.length_take] at this
        omega
  have hnum : frameNum t.frames ms.length = ms.length := by
    unfold frameNum
    rw [hs.frames, hwant]
    rcases Nat.lt_or_ge ms.length (h.sweep + 1) with hl | hl
    · rw [List.getElem?_range hl]
    · rw [List.getElem?_eq_none (by rw [List.length_range]; exact hl), List.range_succ, List.getLast?_append]
      simp
      omega
  refine ⟨_, _, rfl, rfl, rfl, rfl, ?_, ?_, ?_⟩
  · dsimp only
    rw [hnum]
  · dsimp only
    rw [hnum]
    rfl
  · dsimp only
    rw [hs.width, hs.height, Nat.div_one, Nat.div_one]
    push_cast
    ring

end Verif.Props.JeolPts
