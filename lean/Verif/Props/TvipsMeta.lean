import Verif.Model.TvipsMeta
import Mathlib.Tactic.Linarith
import Mathlib.Tactic.Ring
import Mathlib.Tactic.NormNum
import Mathlib.Tactic.Push
/-!
C162 (calibrations of TVIPS files), C163 (times of TVIPS files) and C164 (metadata of TVIPS files).
-/
namespace Verif.Props.TvipsMeta
open Verif Verif.TvipsMeta Verif.Tvips Verif.TvipsScan

/-! ### Specification -/

/-- The signal has navigation axes `nav` and then the axes `y` and `x` of images. -/
def IsStack (s : Signal) (nav : List Ax) (y x : Ax) : Prop :=
  s.axes = nav ++ [y, x] ∧ (∀ a ∈ nav, a.navigate = true) ∧ y.navigate = false ∧ x.navigate = false

/-- A number for an unsigned integer of 32 bits. -/
def Fits (r : Rat) : Prop := 0 ≤ r ∧ r ≤ 2 ^ 32 - 1

/-- Lengths and positions that can be written, in nm or 1/nm: `f` is one of the units of the signal. -/
def Writable (s : Signal) (nav : List Ax) (y x : Ax) (f : Rat) : Prop :=
  (∀ a, (nav ++ [y, x]).head? = some a → a.scale = y.scale) ∧ Fits (y.scale * f) ∧ Fits (x.offset * f) ∧ Fits (y.offset * f) ∧ Fits s.given.energy ∧
    Fits s.given.camera ∧ Fits s.given.magnification

/-! ### Lemmas -/

theorem storeInt_ok {i : Int} (h0 : 0 ≤ i) (h1 : i < 2 ^ 32) : storeInt i = .ok i.toNat := if_pos ⟨h0, h1⟩

theorem storeLength_ok (u : Pint) (k : Nat) (unit : String) (r : Rat) (h : Fits (r * u.factor unit)) :
    ∃ n : Nat, storeLength u (some k) unit r = .ok n ∧ |(n : Rat) - r * u.factor unit| ≤ 1 / 2 := by
  have h0 : 0 ≤ roundEven (r * u.factor unit) := roundEven_mono_int (by exact_mod_cast h.1)
  have h1 : roundEven (r * u.factor unit) ≤ 2 ^ 32 - 1 := roundEven_le_int (by have := h.2; norm_num at this ⊢; exact this)
  refine ⟨(roundEven (r * u.factor unit)).toNat, storeInt_ok h0 (by omega), ?_⟩
  have hc : (((roundEven (r * u.factor unit)).toNat : Nat) : Rat) = (roundEven (r * u.factor unit) : Rat) := by
    have : (((roundEven (r * u.factor unit)).toNat : Nat) : Int) = roundEven (r * u.factor unit) := Int.toNat_of_nonneg h0
    exact_mod_cast this
  rw [hc]
  exact roundEven_err _

theorem truncate_nonneg {r : Rat} (h : 0 ≤ r) : truncate r = ⌊r⌋ := if_pos h

theorem storeTrunc_ok (r : Rat) (h : Fits r) : ∃ n : Nat, storeInt (truncate r) = .ok n ∧ (n : Int) = ⌊r⌋ := by
  have h0 : 0 ≤ ⌊r⌋ := Int.floor_nonneg.2 h.1
  have h1 : ⌊r⌋ ≤ 2 ^ 32 - 1 := by
    have : (⌊r⌋ : Rat) ≤ ((2 ^ 32 - 1 : Int) : Rat) := (Int.floor_le r).trans (by have := h.2; norm_num at this ⊢; exact this)
    exact_mod_cast this
  refine ⟨⌊r⌋.toNat, ?_, Int.toNat_of_nonneg h0⟩
  rw [truncate_nonneg h.1]
  exact storeInt_ok h0 (by omega)

theorem fits_magTotal (m : Option Nat) (g : Given) (hc : Fits g.camera) (hm : Fits g.magnification) : Fits (magTotal m g) := by
  unfold magTotal
  split
  · exact ⟨le_refl _, by norm_num⟩
  · split
    · exact hc
    · split
      · exact hm
      · exact ⟨le_refl _, by norm_num⟩

theorem fromEnd_two (nav : List Ax) (y x : Ax) : fromEnd (nav ++ [y, x]) 2 = .ok y := by
  simp [fromEnd]

theorem fromEnd_one (nav : List Ax) (y x : Ax) : fromEnd (nav ++ [y, x]) 1 = .ok x := by
  simp [fromEnd]

theorem fromEnd_three (nav : List Ax) (a y x : Ax) : fromEnd ((nav ++ [a]) ++ [y, x]) 3 = .ok a := by
  simp [fromEnd]

theorem mainHead_ok (u : Pint) (version extra : Nat) (s : Signal) (nav : List Ax) (y x : Ax) (k : Nat) (hs : IsStack s nav y x) (hk : u.kind y.units = some k)
    (hw : Writable s nav y x (u.factor y.units)) :
    ∃ sc ox oy ht mag : Nat, mainHead u version extra s = .ok (mainHeader version extra x.size y.size s.itemsize ox oy sc ht mag) ∧
      |(sc : Rat) - y.scale * u.factor y.units| ≤ 1 / 2 ∧ |(ox : Rat) - x.offset * u.factor y.units| ≤ 1 / 2 ∧
      |(oy : Rat) - y.offset * u.factor y.units| ≤ 1 / 2 ∧ (ht : Int) = ⌊s.given.energy⌋ ∧ (mag : Int) = ⌊magTotal (some k) s.given⌋ := by
  obtain ⟨ha, hn, hy, hx⟩ := hs
  obtain ⟨h1, h2, h3, h4, h5, h6, h7⟩ := hw
  obtain ⟨sc, e1, b1⟩ := storeLength_ok u k y.units y.scale h2
  obtain ⟨ox, e2, b2⟩ := storeLength_ok u k y.units x.offset h3
  obtain ⟨oy, e3, b3⟩ := storeLength_ok u k y.units y.offset h4
  obtain ⟨ht, e4, b4⟩ := storeTrunc_ok _ h5
  obtain ⟨mag, e5, b5⟩ := storeTrunc_ok _ (fits_magTotal (some k) s.given h6 h7)
  refine ⟨sc, ox, oy, ht, mag, ?_, b1, b2, b3, b4, b5⟩
  unfold mainHead
  rw [ha, fromEnd_two, fromEnd_one]
  unfold guessMode
  cases nav with
  | nil =>
    simp only [List.nil_append, bind, Except.bind, hk, e1, e2, e3, e4, e5]
  | cons a l =>
    have := h1 a rfl
    simp only [List.cons_append, bind, Except.bind, hk, this, e1, e2, e3, e4, e5]

theorem filter_nav (nav : List Ax) (y x : Ax) (hn : ∀ a ∈ nav, a.navigate = true) (hy : y.navigate = false) (hx : x.navigate = false) :
    (nav ++ [y, x]).filter Ax.navigate = nav := by
  rw [List.filter_append, List.filter_eq_self.2 hn]
  simp [hy, hx]

theorem filter_sig (nav : List Ax) (y x : Ax) (hn : ∀ a ∈ nav, a.navigate = true) (hy : y.navigate = false) (hx : x.navigate = false) :
    (nav ++ [y, x]).filter (fun a => !a.navigate) = [y, x] := by
  rw [List.filter_append, List.filter_eq_nil_iff.2 (by intro a h; simp [hn a h])]
  simp [hy, hx]

theorem write_ok (u : Pint) (f4 : Rat → Rat) (version extra : Nat) (mode : Option Nat) (s : Signal) (nav : List Ax) (a y x : Ax) (k n : Nat) (hs : IsStack s (nav ++ [a]) y x)
    (hk : u.kind y.units = some k) (hm : mode = none ∨ mode = some k) (hw : Writable s (nav ++ [a]) y x (u.factor y.units))
    (hn : ((nav ++ [a]).map Ax.size).prod = n + 2) :
    ∃ sc ox oy ht mag : Nat,
      write u f4 version extra mode s = .ok (mainHeader version extra x.size y.size s.itemsize ox oy sc ht mag,
        (List.range (n + 2)).map (frameHead f4 s.given k (increment u a))) ∧
      |(sc : Rat) - y.scale * u.factor y.units| ≤ 1 / 2 ∧ |(ox : Rat) - x.offset * u.factor y.units| ≤ 1 / 2 ∧
      |(oy : Rat) - y.offset * u.factor y.units| ≤ 1 / 2 ∧ (ht : Int) = ⌊s.given.energy⌋ ∧ (mag : Int) = ⌊magTotal (some k) s.given⌋ := by
  obtain ⟨sc, ox, oy, ht, mag, e, b⟩ := mainHead_ok u version extra s _ y x k hs hk hw
  refine ⟨sc, ox, oy, ht, mag, ?_, b⟩
  obtain ⟨ha, hnav, hy, hx⟩ := hs
  have hf : numFrames s = n + 2 := by
    unfold numFrames
    rw [ha, filter_nav _ y x hnav hy hx]
    dsimp only
    rw [if_neg (by simp), hn]
  unfold write
  rw [e, hf, ha, filter_sig _ y x hnav hy hx, fromEnd_two, fromEnd_three]
  have hg : (mode.orElse fun _ => guessMode u y).getD 2 = k := by
    rcases hm with rfl | rfl
    · simp [guessMode, hk]
    · rfl
  rw [if_neg (by simp)]
  dsimp only [bind, Except.bind]
  rw [if_neg (by omega), hg]

theorem range_two (n : Nat) : List.range (n + 2) = 0 :: 1 :: (List.range n).map (· + 2) := by
  rw [List.range_succ_eq_map, List.range_succ_eq_map]
  simp [Function.comp_def]

/-- What is read of a file with at least two frames. -/
theorem readBack_ok (f4 : Rat → Rat) (zone : Int) (h : Header) (g : Given) (k n : Nat) (inc : Rat) :
    readBack zone h ((List.range (n + 2)).map (frameHead f4 g k inc)) =
      .ok ([⟨n + 2, "time", (((frameHead f4 g k inc 1).timestamp : Rat) + ((frameHead f4 g k inc 1).ms : Rat) / 1000) -
          (((frameHead f4 g k inc 0).timestamp : Rat) + ((frameHead f4 g k inc 0).ms : Rat) / 1000),
          ((frameHead f4 g k inc 0).timestamp : Rat) + ((frameHead f4 g k inc 0).ms : Rat) / 1000, "s", true⟩,
        ⟨h.dimy, "dy", h.pixelsize, h.offy, dpu k, false⟩, ⟨h.dimx, "dx", h.pixelsize, h.offx, dpu k, false⟩],
        ⟨(frameHead f4 g k inc 0).timestamp + zone, h.magtotal, h.ht, f4 g.current, 0, f4 g.tiltAlpha, f4 g.tiltBeta, f4 g.x, f4 g.y, f4 g.z, k = 2⟩) := by
  rw [range_two]
  simp [readBack, readMeta, stackAxes, bind, Except.bind, frameHead]

theorem roundTrip_eq {u : Pint} {f4 : Rat → Rat} {version extra : Nat} {mode : Option Nat} {s : Signal} {w : Header × List FrameHead} (e : write u f4 version extra mode s = .ok w) (zone : Int) :
    roundTrip u f4 version extra mode zone s = readBack zone w.1 w.2 := by
  unfold roundTrip
  rw [e]
  rfl

/-- Whole seconds and milliseconds. -/
theorem frame_time (f4 : Rat → Rat) (g : Given) (k d t j : Nat) (ht : g.start = t) (hr : t * 1000 + j * d < 2 ^ 32 * 1000) :
    ((frameHead f4 g k d j).timestamp : Rat) + ((frameHead f4 g k d j).ms : Rat) / 1000 = t + j * d / 1000 ∧
      (frameHead f4 g k d j).timestamp = t + j * d / 1000 := by
  have hq : ⌊((j : Rat) * (d : Rat)) / 1000⌋ = ((j * d / 1000 : Nat) : Int) := by
    have := Rat.floor_intCast_div_natCast ((j * d : Nat) : Int) 1000
    push_cast at this
    rw [this]
    push_cast
    rfl
  have h1 : truncate (g.start + ((j : Rat) * d) / 1000) = ((t + j * d / 1000 : Nat) : Int) := by
    rw [truncate_nonneg (by rw [ht]; positivity), ht]
    have : (t : Rat) + ((j : Rat) * d) / 1000 = ((j : Rat) * d) / 1000 + ((t : Int) : Rat) := by push_cast; ring
    rw [this, Int.floor_add_intCast, hq]
    push_cast
    ring
  have h2 : ⌊((j : Rat) * d) - 1000 * ⌊((j : Rat) * d) / 1000⌋⌋ = ((j * d % 1000 : Nat) : Int) := by
    rw [hq]
    have : ((j : Rat) * d) - 1000 * (((j * d / 1000 : Nat) : Int) : Rat) = (((j * d % 1000 : Nat) : Int) : Rat) := by
      have h := Nat.div_add_mod (j * d) 1000
      have h' : (1000 : Rat) * ((j * d / 1000 : Nat) : Rat) + ((j * d % 1000 : Nat) : Rat) = ((j * d : Nat) : Rat) := by exact_mod_cast h
      have h2 : ((j * d : Nat) : Rat) = (j : Rat) * d := Nat.cast_mul j d
      rw [h2] at h'
      rw [Int.cast_natCast, Int.cast_natCast]
      linarith
    rw [this, Int.floor_intCast]
  have h3 : (frameHead f4 g k d j).timestamp = t + j * d / 1000 := by
    show (truncate (g.start + ((j : Rat) * d) / 1000) % 2 ^ 32).toNat = _
    rw [h1]
    omega
  have h4 : (frameHead f4 g k d j).ms = j * d % 1000 := by
    show ⌊((j : Rat) * d) - 1000 * ⌊((j : Rat) * d) / 1000⌋⌋.toNat = _
    rw [h2]
    rfl
  refine ⟨?_, h3⟩
  rw [h3, h4]
  have h := Nat.div_add_mod (j * d) 1000
  have h' : (1000 : Rat) * ((j * d / 1000 : Nat) : Rat) + ((j * d % 1000 : Nat) : Rat) = ((j * d : Nat) : Rat) := by exact_mod_cast h
  push_cast at h' ⊢
  linarith

/-! ### C162 -/

/-- C162, partial: if pixels are as large as the steps of the first axis, and lengths and positions are not negative, then the axes of images come back with
their sizes, in nm or 1/nm, up to half a nm or half of 1/nm. Missing: pixels of another size than the steps of the first axis, fractions of nm and 1/nm, positions below 0, single images, and another mode than that of the units
(`C162_fails_…`). -/
theorem C162_pixels_partial (u : Pint) (f4 : Rat → Rat) (version extra : Nat) (mode : Option Nat) (zone : Int) (s : Signal) (nav : List Ax) (a y x : Ax) (k n : Nat)
    (hs : IsStack s (nav ++ [a]) y x) (hk : u.kind y.units = some k) (hk12 : k = 1 ∨ k = 2) (hm : mode = none ∨ mode = some k)
    (hw : Writable s (nav ++ [a]) y x (u.factor y.units)) (hn : ((nav ++ [a]).map Ax.size).prod = n + 2) :
    ∃ t y' x' m, roundTrip u f4 version extra mode zone s = .ok ([t, y', x'], m) ∧ t.size = n + 2 ∧ t.navigate = true ∧ y'.size = y.size ∧ x'.size = x.size ∧
      y'.units = (if k = 1 then "nm" else "1/nm") ∧ x'.units = y'.units ∧ y'.navigate = false ∧ x'.navigate = false ∧
      |y'.scale - y.scale * u.factor y.units| ≤ 1 / 2 ∧ x'.scale = y'.scale ∧
      |y'.offset - y.offset * u.factor y.units| ≤ 1 / 2 ∧ |x'.offset - x.offset * u.factor y.units| ≤ 1 / 2 ∧ m.diffraction = decide (k = 2) := by
  obtain ⟨sc, ox, oy, ht, mag, e, b1, b2, b3, b4, b5⟩ := write_ok u f4 version extra mode s nav a y x k n hs hk hm hw hn
  refine ⟨_, _, _, _, (roundTrip_eq e zone).trans (readBack_ok f4 zone _ s.given k n _), rfl, rfl, rfl, rfl, ?_, rfl, rfl, rfl, b1, rfl, b3, b2, rfl⟩
  rcases hk12 with rfl | rfl <;> rfl

/-! ### C163 -/

/-- C163, partial: with a start at a whole second and steps of whole milliseconds, each frame has its time, the time axis has its step and its start in seconds, and
the date is that of the start if the local time is UTC. Missing: other time zones, fractions of seconds and of milliseconds (`C163_fails_…`). -/
theorem C163_times_partial (u : Pint) (f4 : Rat → Rat) (version extra : Nat) (mode : Option Nat) (s : Signal) (nav : List Ax) (a y x : Ax) (k n t d : Nat) (f : Rat)
    (hs : IsStack s (nav ++ [a]) y x) (hk : u.kind y.units = some k) (hm : mode = none ∨ mode = some k) (hw : Writable s (nav ++ [a]) y x (u.factor y.units))
    (hn : ((nav ++ [a]).map Ax.size).prod = n + 2) (hstart : s.given.start = t) (hf : u.toMs a.units = some f) (hd : a.scale * f = d)
    (hr : t * 1000 + (n + 2) * d < 2 ^ 32 * 1000) :
    (∃ h frames, write u f4 version extra mode s = .ok (h, frames) ∧ frames.length = n + 2 ∧
      ∀ j, j < n + 2 → ∃ fr, frames[j]? = some fr ∧ (fr.timestamp : Rat) + (fr.ms : Rat) / 1000 = t + j * d / 1000 ∧ fr.ms < 1000 ∧ fr.rotidx = (j + 1) % 2 ^ 32) ∧
      ∃ tx y' x' m, roundTrip u f4 version extra mode 0 s = .ok ([tx, y', x'], m) ∧ tx.scale = a.scale * f / 1000 ∧ tx.offset = s.given.start ∧ tx.units = "s" ∧ m.seconds = t := by
  obtain ⟨sc, ox, oy, ht, mag, e, b1, b2, b3, b4, b5⟩ := write_ok u f4 version extra mode s nav a y x k n hs hk hm hw hn
  have hi : increment u a = d := by
    unfold increment
    rw [hf]
    exact hd
  rw [hi] at e
  have hj : ∀ j, j < n + 2 → t * 1000 + j * d < 2 ^ 32 * 1000 := by
    intro j h
    have := Nat.mul_le_mul_right d (Nat.le_of_lt h)
    omega
  constructor
  · refine ⟨_, _, e, by simp, ?_⟩
    intro j h
    refine ⟨_, by rw [List.getElem?_map, List.getElem?_range h]; rfl, (frame_time f4 s.given k d t j hstart (hj j h)).1, ?_, rfl⟩
    have h1 := Int.lt_floor_add_one ((j : Rat) * d / 1000)
    have h3 : ((j : Rat) * d) - 1000 * ⌊((j : Rat) * d) / 1000⌋ < 1000 := by linarith
    have h2 : ⌊((j : Rat) * d) - 1000 * ⌊((j : Rat) * d) / 1000⌋⌋ < 1000 := Int.floor_lt.2 (by exact_mod_cast h3)
    show ⌊((j : Rat) * d) - 1000 * ⌊((j : Rat) * d) / 1000⌋⌋.toNat < 1000
    omega
  · have f0 := frame_time f4 s.given k d t 0 hstart (hj 0 (by omega))
    have f1 := frame_time f4 s.given k d t 1 hstart (hj 1 (by omega))
    refine ⟨_, _, _, _, (roundTrip_eq e 0).trans (readBack_ok f4 0 _ s.given k n _), ?_⟩
    · refine ⟨?_, ?_, rfl, ?_⟩
      · show _ - _ = _
        rw [f0.1, f1.1, hd]
        push_cast
        ring
      · show _ + _ = _
        rw [f0.1, hstart]
        push_cast
        ring
      · show ((frameHead f4 s.given k d 0).timestamp : Int) + 0 = t
        rw [f0.2]
        simp

/-! ### C164 -/

/-- C164, partial: the position of the stage and the current come back in single precision, a whole beam energy as it is, and a whole magnification of images without
camera length. Missing: tilts of the stage, defocus, fractions, camera lengths (`C164_fails_…`). -/
theorem C164_stage_partial (u : Pint) (f4 : Rat → Rat) (version extra : Nat) (mode : Option Nat) (zone : Int) (s : Signal) (nav : List Ax) (a y x : Ax) (k n : Nat)
    (hs : IsStack s (nav ++ [a]) y x) (hk : u.kind y.units = some k) (hm : mode = none ∨ mode = some k) (hw : Writable s (nav ++ [a]) y x (u.factor y.units))
    (hn : ((nav ++ [a]).map Ax.size).prod = n + 2) :
    ∃ axes m, roundTrip u f4 version extra mode zone s = .ok (axes, m) ∧ m.x = f4 s.given.x ∧ m.y = f4 s.given.y ∧ m.z = f4 s.given.z ∧ m.current = f4 s.given.current ∧
      m.energy ≤ s.given.energy ∧ s.given.energy < m.energy + 1 ∧ (∀ e : Nat, s.given.energy = e → m.energy = e) ∧
      (k = 1 → s.given.camera = 0 → m.magnification ≤ s.given.magnification ∧ s.given.magnification < m.magnification + 1 ∧
        ∀ e : Nat, s.given.magnification = e → m.magnification = e) := by
  obtain ⟨sc, ox, oy, ht, mag, e, b1, b2, b3, b4, b5⟩ := write_ok u f4 version extra mode s nav a y x k n hs hk hm hw hn
  have key : ∀ (v : Nat) (r : Rat), (v : Int) = ⌊r⌋ → (v : Rat) ≤ r ∧ r < (v : Rat) + 1 ∧ ∀ e : Nat, r = e → (v : Rat) = e := by
    intro v r h
    have h1 := Int.floor_le r
    have h2 := Int.lt_floor_add_one r
    rw [← h] at h1 h2
    refine ⟨by exact_mod_cast h1, by exact_mod_cast h2, ?_⟩
    intro e he
    rw [he] at h
    have : (v : Int) = (e : Int) := by
      rw [h]
      exact_mod_cast Int.floor_intCast (e : Int)
    exact_mod_cast this
  refine ⟨_, _, (roundTrip_eq e zone).trans (readBack_ok f4 zone _ s.given k n _), ?_⟩
  · refine ⟨rfl, rfl, rfl, rfl, (key ht _ b4).1, (key ht _ b4).2.1, (key ht _ b4).2.2, ?_⟩
    rintro rfl hc
    have hm' : magTotal (some 1) s.given = s.given.magnification := by
      unfold magTotal
      rw [if_neg (by simp [hc]), if_neg (by simp [hc])]
      by_cases h0 : s.given.magnification = 0
      · rw [if_neg (by simp [h0]), h0]
      · exact if_pos ⟨h0, rfl⟩
    rw [hm'] at b5
    exact key mag _ b5

/-! ### Examples and counterexamples -/

/-- Some units. -/
def someUnits : Pint where
  kind s := if s = "nm" ∨ s = "um" then some 1 else if s = "1/nm" then some 2 else none
  factor s := if s = "um" then 1000 else 1
  toMs s := if s = "s" then some 1000 else if s = "ms" then some 1 else none

def noGiven : Given := ⟨0, 0, 0, 0, 0, 0, 0, 0, 0, 0, 0, 0, 0⟩

/-- Three images of 4 × 5 pixels of 2 µm, every 2 s, from 100 s on. -/
def film : Signal := ⟨[⟨3, 2, 0, "s", true⟩, ⟨4, 2, 1, "um", false⟩, ⟨5, 2, 3, "um", false⟩], 2, { noGiven with start := 100, energy := 300, magnification := 5000, x := 1, current := 7 }⟩

example : IsStack film [⟨3, 2, 0, "s", true⟩] ⟨4, 2, 1, "um", false⟩ ⟨5, 2, 3, "um", false⟩ ∧ someUnits.kind "um" = some 1 ∧
    Writable film [⟨3, 2, 0, "s", true⟩] ⟨4, 2, 1, "um", false⟩ ⟨5, 2, 3, "um", false⟩ (someUnits.factor "um") := by
  refine ⟨⟨rfl, by simp, rfl, rfl⟩, by decide, ?_, ?_, ?_, ?_, ?_, ?_, ?_⟩
  · intro a h
    cases h
    rfl
  all_goals exact ⟨by decide +kernel, by decide +kernel⟩

/-- The axes and metadata of the example. -/
example : roundTrip someUnits id 2 0 none 0 film = .ok ([⟨3, "time", 2, 100, "s", true⟩, ⟨4, "dy", 2000, 1000, "nm", false⟩, ⟨5, "dx", 2000, 3000, "nm", false⟩],
    ⟨100, 5000, 300, 7, 0, 0, 0, 1, 0, 0, false⟩) := by decide +kernel

/-- Two images with pixels of `s` in units `un`, offset `o`, every `d` ms. -/
def two (d s o : Rat) (un : String) (g : Given) : Signal := ⟨[⟨2, d, 0, "ms", true⟩, ⟨4, s, 0, un, false⟩, ⟨4, s, o, un, false⟩], 2, g⟩

/-- C162 fails: the size of pixels is that of the first axis, here the time from image to image. -/
theorem C162_fails_pixel : (roundTrip someUnits id 2 0 none 0 (two 500 2 0 "nm" noGiven)).map (fun r => r.1.map Axis.scale) = .ok [1 / 2, 500, 500] := by decide +kernel

/-- C162 fails: pixels of 0.4 nm have the size 0. -/
theorem C162_fails_fine : (roundTrip someUnits id 2 0 none 0 (two (2 / 5) (2 / 5) 0 "nm" noGiven)).map (fun r => (r.1.drop 1).map Axis.scale) = .ok [0, 0] := by decide +kernel

/-- C162 fails: images that begin left of 0, as diffraction patterns around their centre do, cannot be written. -/
theorem C162_fails_negative : roundTrip someUnits id 2 0 none 0 (two 1 1 (-2) "1/nm" noGiven) = .error .overflowError := by decide +kernel

/-- C162 fails: a single image cannot be written. -/
theorem C162_fails_single : roundTrip someUnits id 2 0 none 0 ⟨[⟨4, 1, 0, "nm", false⟩, ⟨4, 1, 0, "nm", false⟩], 2, noGiven⟩ = .error .nameError := by decide +kernel

/-- C162 fails: images in nm that are written in the mode of diffraction are read in 1/nm. -/
theorem C162_fails_mode : (roundTrip someUnits id 2 0 (some 2) 0 (two 1 1 0 "nm" noGiven)).map (fun r => (r.1.drop 1).map Axis.units) = .ok ["1/nm", "1/nm"] := by decide +kernel

/-- C162 fails: pixels in units that are no lengths are read in 1/nm, with the same number. -/
theorem C162_fails_units : (roundTrip someUnits id 2 0 none 0 (two 1 1 0 "px" noGiven)).map (fun r => (r.1.drop 1).map fun a => (a.scale, a.units)) =
    .ok [(1, "1/nm"), (1, "1/nm")] := by decide +kernel

/-- C163 fails: the date and time of a recording are those of the local time zone, but said to be UTC. -/
theorem C163_fails_zone : (roundTrip someUnits id 2 0 none 3600 (two 1 1 0 "nm" noGiven)).map (fun r => r.2.seconds) = .ok 3600 := by decide +kernel

/-- C163 fails: the fraction of a second of the start is counted in seconds, but not in milliseconds: images every 0.6 s from 0.5 s on are 1.6 s apart. -/
theorem C163_fails_fraction : (roundTrip someUnits id 2 0 none 0 (two 600 600 0 "nm" { noGiven with start := 1 / 2 })).map (fun r => (r.1.take 1).map Axis.scale) =
    .ok [8 / 5] := by decide +kernel

/-- C163 fails: images every 0.5 ms are at the same time. -/
theorem C163_fails_fine : (roundTrip someUnits id 2 0 none 0 (two (1 / 2) (1 / 2) 0 "nm" noGiven)).map (fun r => (r.1.take 1).map Axis.scale) = .ok [0] := by decide +kernel

/-- C164 fails: tilts of the stage are not written, as they are looked for at another place than that where they are read. -/
theorem C164_fails_tilt : (roundTrip someUnits id 2 0 none 0 (two 1 1 0 "nm" { noGiven with stageAlpha := 30, stageBeta := 10 })).map (fun r => (r.2.alpha, r.2.beta)) = .ok (0, 0) := by
  decide +kernel

/-- C164 fails: the defocus is not written. -/
theorem C164_fails_defocus : (roundTrip someUnits id 2 0 none 0 (two 1 1 0 "nm" { noGiven with defocus := 2 })).map (fun r => r.2.defocus) = .ok 0 := by decide +kernel

/-- C164 fails: the camera length of diffraction patterns is read as magnification. -/
theorem C164_fails_camera : (roundTrip someUnits id 2 0 none 0 (two 1 1 0 "1/nm" { noGiven with camera := 800 })).map (fun r => r.2.magnification) = .ok 800 := by decide +kernel

/-- C164 fails: with camera length and magnification none is written. -/
theorem C164_fails_both : (roundTrip someUnits id 2 0 none 0 (two 1 1 0 "nm" { noGiven with camera := 800, magnification := 5000 })).map (fun r => r.2.magnification) = .ok 0 := by
  decide +kernel

/-- C164 fails: 80.5 kV are 80 kV. -/
theorem C164_fails_energy : (roundTrip someUnits id 2 0 none 0 (two 1 1 0 "nm" { noGiven with energy := 161 / 2 })).map (fun r => r.2.energy) = .ok 80 := by decide +kernel

end Verif.Props.TvipsMeta
