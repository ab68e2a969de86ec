import Verif.Props.Renishaw
/-! C79 and C80: axes and data of `.wdf` files. -/
namespace Verif.Props.Renishaw
open Verif.Renishaw Verif.Spec.Renishaw Verif.Lemmas.Renishaw Verif.BytesSpec

/-- The header as the code reads it. -/
abbrev head (P cap N type : Nat) (hdr : Bytes) : Header := ⟨P, cap, N, num hdr 68 4, kindOf type⟩

theorem scan_read {f : Bytes} {bs : List Block} {hdr xlst data : Bytes} {P cap N type rounds : Nat} {u : Bool} {r : Result}
    (h : Wdf f bs) (hr : bs.length < rounds) (hs : Scan bs hdr xlst data P cap N type)
    (hread : fileReader rounds f false u = some (.ok r)) :
    ∃ m orgn wmap nav axes sig, readMeta f (place 0 bs []) = .ok m ∧ r.metadata = m.1 ∧
      readOrgn f (place 0 bs []) (head P cap N type hdr) = .ok orgn ∧ readWmap f (place 0 bs []) = .ok wmap ∧
      navAxes (head P cap N type hdr) orgn wmap = .ok nav ∧ setAxes sig nav = .ok axes ∧
      readXlst f (place 0 bs []) P u = .ok (sig, turned xlst) ∧ r.axes = axes ∧
      reshape (head P cap N type hdr) (axes.dropLast.map Axis.size) P (turned xlst)
        ((List.range (P * N)).map fun k => num data (4 * k) 4) = .ok (r.shape, r.data) := by
  rw [reader_eq h hr] at hread
  injection hread with hread
  exact readFile_ok (has_found h hs.header (by decide)) hs.head (has_found h hs.signal (by decide)) hs.signalLen hs.two
    (has_found h hs.stored (by decide)) hs.dataLen hread

theorem scan_signal {f : Bytes} {bs : List Block} {hdr xlst data : Bytes} {P cap N type : Nat} {u : Bool} {sig : Axis}
    (h : Wdf f bs) (hs : Scan bs hdr xlst data P cap N type) (hx : readXlst f (place 0 bs []) P u = .ok (sig, turned xlst)) :
    u = false → SignalAxis xlst P sig := by
  intro hu
  rw [readXlst_raw (has_found h hs.signal (by decide)) hs.signalLen hs.two u] at hx
  injection hx with hx
  injection hx with hx _
  rw [← hx, hu]
  exact signalAxis_spec _ _ _ _

theorem scan_spectra {xlst data : Bytes} {P N : Nat} {h : Header} {nav : List Nat} {shape : List Nat} {cells : List Cell} (hP : 2 ≤ P)
    (hN : h.unfinished = true ∨ h.spectra = size nav) (hle : size nav ≤ N)
    (hr : reshape h nav P (turned xlst) ((List.range (P * N)).map fun k => num data (4 * k) 4) = .ok (shape, cells)) :
    shape = nav ++ [P] ∧ cells.length = size nav * P ∧ ∀ n < size nav, IsSpectrum data xlst P cells n n := by
  obtain ⟨c, h1, h2, h3⟩ := reshape_ok (h := h) (nav := nav) (P := P) (rev := turned xlst)
    (d := (List.range (P * N)).map fun k => num data (4 * k) 4) (by omega) hN
    (by rw [List.length_map, List.length_range, Nat.mul_comm P]; exact Nat.mul_le_mul_right _ hle)
  rw [h1] at hr
  injection hr with hr
  injection hr with e1 e2
  rw [← e1, ← e2]
  exact ⟨rfl, h2, spectrum_of hle h3⟩

theorem setAxes_xy (sig a b : Axis) : setAxes sig [("X".toList, a), ("Y".toList, b)] = .ok [b, a, sig] := by
  dsimp only [setAxes]
  rw [show getKw "Y".toList [("X".toList, a), ("Y".toList, b)] = some b from by rw [getKw, if_neg (by decide), getKw, if_pos rfl],
    show getKw "X".toList [("X".toList, a), ("Y".toList, b)] = some a from by rw [getKw, if_pos rfl]]

/-- The axes of a map. -/
theorem map_axes {h : Header} {fl X Y : Nat} {ox oy sx sy : Rat} {orgn : List (Text × Origin)} {nav : List (Text × Axis)} {sig : Axis}
    {axes : List Axis} (hk : h.kind = .mapping) (hfl : fl ≠ 128)
    (hn : navAxes h orgn (some ⟨fl, [ox, oy], [sx, sy], [X, Y]⟩) = .ok nav) (ha : setAxes sig nav = .ok axes) :
    ∃ k o rest, orgn = (k, o) :: rest ∧ axes = [⟨"Y".toList, some o.units, if h.unfinished then h.spectra / X else Y, true, .uniform oy sy⟩,
      ⟨"X".toList, some o.units, X, true, .uniform ox sx⟩, sig] := by
  unfold navAxes at hn
  rw [hk] at hn
  cases orgn with
  | nil => cases hn
  | cons e rest =>
    obtain ⟨k, o⟩ := e
    refine ⟨k, o, rest, rfl, ?_⟩
    dsimp only at hn
    injection hn with hn
    rw [← hn] at ha
    unfold navWmap at ha
    dsimp only at ha
    rw [if_neg hfl] at ha
    rw [setAxes_xy] at ha
    injection ha with ha
    rw [← ha]
    by_cases hu : h.unfinished = true
    · simp only [hu, if_true]; rfl
    · simp only [hu, Bool.false_eq_true, if_false]; rfl

/-- C79: a finished map. Spectrum `y * X + x` of the file is at row `y` and column `x`, with its intensities in the order of the values of the
signal axis: an axis that is stored from large to small is turned round, and the intensities with it. What is missing: maps measured to and fro
(`C79_fails_snake`). -/
theorem C79_map_partial {f : Bytes} {bs : List Block} {hdr xlst data wmap : Bytes} {P N X Y fl rounds : Nat} {ox oy sx sy : Rat} {u : Bool} {r : Result}
    (h : Wdf f bs) (hr : bs.length < rounds) (hs : Scan bs hdr xlst data P N N 3) (hw : Has bs "WMAP" 0 wmap) (hm : Map wmap fl X Y ox oy sx sy)
    (hfl : fl ≠ 128) (hN : N = X * Y) (hread : fileReader rounds f false u = some (.ok r)) :
    r.shape = [Y, X, P] ∧ r.data.length = Y * X * P ∧
    (∃ y x s, r.axes = [y, x, s] ∧ y.name = "Y".toList ∧ x.name = "X".toList ∧ y.size = Y ∧ x.size = X ∧ s.size = P ∧
      (u = false → SignalAxis xlst P s)) ∧
    ∀ y < Y, ∀ x < X, IsSpectrum data xlst P r.data (y * X + x) (y * X + x) := by
  obtain ⟨m, orgn, wm, nav, axes, sig, h1, h2, h3, h4, h5, h6, h7, h8, h9⟩ := scan_read h hr hs hread
  rw [readWmap_found (has_found h hw (by decide)) hm] at h4
  injection h4 with h4
  rw [← h4] at h5
  obtain ⟨k, o, rest, g1, g2⟩ := map_axes rfl hfl h5 h6
  have hunf : (head P N N 3 hdr).unfinished = false := by unfold Header.unfinished; simp
  rw [hunf] at g2
  rw [g2] at h8 h9
  have hsz : size [Y, X] = Y * X := by simp [size]
  have := scan_spectra (nav := [Y, X]) hs.two (Or.inr (by rw [hsz, Nat.mul_comm]; exact hN)) (by rw [hsz, Nat.mul_comm, hN]) h9
  refine ⟨this.1, by rw [this.2.1, hsz], ⟨_, _, sig, h8, rfl, rfl, rfl, rfl, ?_, scan_signal h hs h7⟩, ?_⟩
  · rw [readXlst_raw (has_found h hs.signal (by decide)) hs.signalLen hs.two u] at h7
    injection h7 with h7
    injection h7 with h7 _
    rw [← h7]
  · intro y hy x hx
    apply this.2.2
    rw [hsz]
    calc y * X + x < y * X + X := by omega
      _ = (y + 1) * X := by rw [Nat.succ_mul]
      _ ≤ Y * X := Nat.mul_le_mul_right _ hy

/-- C79: an unfinished map has the rows that are finished. -/
theorem C79_unfinished {f : Bytes} {bs : List Block} {hdr xlst data wmap : Bytes} {P cap N X Y fl rounds : Nat} {ox oy sx sy : Rat} {u : Bool} {r : Result}
    (h : Wdf f bs) (hr : bs.length < rounds) (hs : Scan bs hdr xlst data P cap N 3) (hc : cap ≠ N) (hw : Has bs "WMAP" 0 wmap)
    (hm : Map wmap fl X Y ox oy sx sy) (hfl : fl ≠ 128) (hread : fileReader rounds f false u = some (.ok r)) :
    r.shape = [N / X, X, P] ∧ r.data.length = N / X * X * P ∧
    (∃ y x s, r.axes = [y, x, s] ∧ y.name = "Y".toList ∧ x.name = "X".toList ∧ y.size = N / X ∧ x.size = X ∧ s.size = P ∧
      (u = false → SignalAxis xlst P s)) ∧
    ∀ y < N / X, ∀ x < X, IsSpectrum data xlst P r.data (y * X + x) (y * X + x) := by
  obtain ⟨m, orgn, wm, nav, axes, sig, h1, h2, h3, h4, h5, h6, h7, h8, h9⟩ := scan_read h hr hs hread
  rw [readWmap_found (has_found h hw (by decide)) hm] at h4
  injection h4 with h4
  rw [← h4] at h5
  obtain ⟨k, o, rest, g1, g2⟩ := map_axes rfl hfl h5 h6
  have hunf : (head P cap N 3 hdr).unfinished = true := by unfold Header.unfinished; simpa using fun e => hc e.symm
  rw [hunf] at g2
  rw [g2] at h8 h9
  have hsz : size [N / X, X] = N / X * X := by simp [size]
  have := scan_spectra (nav := [N / X, X]) hs.two (Or.inl hunf) (by rw [hsz]; exact Nat.div_mul_le_self N X) h9
  refine ⟨this.1, by rw [this.2.1, hsz], ⟨_, _, sig, h8, rfl, rfl, rfl, rfl, ?_, scan_signal h hs h7⟩, ?_⟩
  · rw [readXlst_raw (has_found h hs.signal (by decide)) hs.signalLen hs.two u] at h7
    injection h7 with h7
    injection h7 with h7 _
    rw [← h7]
  · intro y hy x hx
    apply this.2.2
    rw [hsz]
    calc y * X + x < y * X + X := by omega
      _ = (y + 1) * X := by rw [Nat.succ_mul]
      _ ≤ N / X * X := Nat.mul_le_mul_right _ hy

/-- C79: a line across a sample (flag 128): one navigation axis. The step is the length of the step in x and y. -/
theorem C79_line {f : Bytes} {bs : List Block} {hdr xlst data wmap : Bytes} {P N Y rounds : Nat} {ox oy sx sy : Rat} {u : Bool} {r : Result}
    (h : Wdf f bs) (hr : bs.length < rounds) (hs : Scan bs hdr xlst data P N N 3) (hw : Has bs "WMAP" 0 wmap)
    (hm : Map wmap 128 N Y ox oy sx sy) (hread : fileReader rounds f false u = some (.ok r)) :
    r.shape = [N, P] ∧ r.data.length = N * P ∧
    (∃ a s, r.axes = [a, s] ∧ a.name = "Abs. Distance".toList ∧ a.size = N ∧ a.cal = .root (sx * sx + sy * sy) ∧ (u = false → SignalAxis xlst P s)) ∧
    ∀ n < N, IsSpectrum data xlst P r.data n n := by
  obtain ⟨m, orgn, wm, nav, axes, sig, h1, h2, h3, h4, h5, h6, h7, h8, h9⟩ := scan_read h hr hs hread
  rw [readWmap_found (has_found h hw (by decide)) hm] at h4
  injection h4 with h4
  rw [← h4] at h5
  unfold navAxes at h5
  rw [show (head P N N 3 hdr).kind = .mapping from rfl] at h5
  cases orgn with
  | nil => cases h5
  | cons e rest =>
    dsimp only at h5
    injection h5 with h5
    unfold navWmap at h5
    dsimp only at h5
    rw [if_pos rfl] at h5
    rw [← h5] at h6
    dsimp only [setAxes, List.getD_cons_zero, List.getD_cons_succ] at h6
    injection h6 with h6
    rw [← h6] at h8 h9
    have hsz : size [N] = N := by simp [size]
    have := scan_spectra (nav := [N]) hs.two (Or.inr hsz.symm) (by rw [hsz]) h9
    rw [hsz] at this
    exact ⟨this.1, this.2.1, ⟨_, sig, h8, rfl, rfl, rfl, scan_signal h hs h7⟩, this.2.2⟩

/-- The axes of a series. -/
theorem series_axes {f : Bytes} {bs : List Block} {hdr xlst data orgn : Bytes} {P cap N rounds : Nat} {es : List Entry} {e : Entry} {u : Bool} {r : Result}
    (h : Wdf f bs) (hr : bs.length < rounds) (hs : Scan bs hdr xlst data P cap N 2) (ho : Has bs "ORGN" 0 orgn) (hN : 0 < N) (hes : Orgn orgn N es)
    (ha : Along es e) (hread : fileReader rounds f false u = some (.ok r)) :
    ∃ a sig, originAxis (typeName e.type) (toOrigin e) = .ok a ∧ r.axes = [a, sig] ∧ a.size = N ∧ (u = false → SignalAxis xlst P sig) ∧
      r.shape = [N, P] ∧ r.data.length = N * P ∧ ∀ n < N, IsSpectrum data xlst P r.data n n := by
  obtain ⟨m, og, wm, nav, axes, sig, h1, h2, h3, h4, h5, h6, h7, h8, h9⟩ := scan_read h hr hs hread
  rw [readOrgn_along (h := head P cap N 2 hdr) (has_found h ho (by decide)) hes hN rfl ha] at h3
  injection h3 with h3
  rw [← h3] at h5
  unfold navAxes at h5
  rw [show (head P cap N 2 hdr).kind = .series from rfl] at h5
  dsimp only at h5
  rw [List.mapM_cons, List.mapM_nil] at h5
  cases hax : originAxis (typeName e.type) (toOrigin e) with
  | error err => rw [hax] at h5; cases h5
  | ok a =>
    rw [hax] at h5
    injection h5 with h5
    rw [← h5] at h6
    dsimp only [setAxes] at h6
    injection h6 with h6
    rw [← h6] at h8 h9
    have hsize : a.size = N := by
      have hl : (toOrigin e).data.length = N := by
        unfold toOrigin
        simp only [List.length_map, List.length_range]
        obtain ⟨_, _, h3⟩ := hes
        have hmem : e ∈ es := by
          rcases ha with ha | ⟨t, _, _, ha | ha⟩
          · exact List.mem_of_mem_filter (by rw [ha]; simp)
          · exact List.mem_of_mem_filter (by rw [ha]; simp)
          · exact List.mem_of_mem_filter (by rw [ha]; simp)
        obtain ⟨i, hi, hei⟩ := List.mem_iff_getElem.mp hmem
        have := (h3 i hi).1
        rwa [hei] at this
      unfold originAxis at hax
      split at hax
      · cases hax
      · split at hax
        · split at hax
          · injection hax with hax; rw [← hax]; exact hl
          · split at hax
            · cases hax
            · injection hax with hax; rw [← hax]; exact hl
        · split at hax
          · injection hax with hax; rw [← hax]; exact hl
          · injection hax with hax; rw [← hax]; exact hl
    have hnav : ([a, sig] : List Axis).dropLast.map Axis.size = [N] := by simp [hsize]
    rw [hnav] at h9
    have hsz : size [N] = N := by simp [size]
    have := scan_spectra (nav := [N]) hs.two (Or.inr hsz.symm) (by rw [hsz]) h9
    rw [hsz] at this
    exact ⟨a, sig, rfl, h8, hsize, scan_signal h hs h7, this.1, this.2.1, this.2.2⟩

/-- C79: a series, in which one quantity was changed from spectrum to spectrum (besides the time). -/
theorem C79_series_partial {f : Bytes} {bs : List Block} {hdr xlst data orgn : Bytes} {P cap N rounds : Nat} {es : List Entry} {e : Entry} {u : Bool} {r : Result}
    (h : Wdf f bs) (hr : bs.length < rounds) (hs : Scan bs hdr xlst data P cap N 2) (ho : Has bs "ORGN" 0 orgn) (hN : 0 < N) (hes : Orgn orgn N es)
    (ha : Along es e) (hread : fileReader rounds f false u = some (.ok r)) :
    r.shape = [N, P] ∧ r.data.length = N * P ∧
    (∃ a s, r.axes = [a, s] ∧ a.size = N ∧ (u = false → SignalAxis xlst P s)) ∧ ∀ n < N, IsSpectrum data xlst P r.data n n := by
  obtain ⟨a, s, _, h1, h2, h3, h4, h5, h6⟩ := series_axes h hr hs ho hN hes ha hread
  exact ⟨h4, h5, ⟨a, s, h1, h2, h3⟩, h6⟩

/-- C79: a single spectrum; of an unfinished measurement the first one. -/
theorem C79_single {f : Bytes} {bs : List Block} {hdr xlst data : Bytes} {P cap N type rounds : Nat} {u : Bool} {r : Result}
    (h : Wdf f bs) (hr : bs.length < rounds) (hs : Scan bs hdr xlst data P cap N type) (ht : type = 0 ∨ type = 1) (hN : 1 ≤ N)
    (hc : N = 1 ∨ cap ≠ N) (hread : fileReader rounds f false u = some (.ok r)) :
    r.shape = [P] ∧ r.data.length = P ∧ (∃ s, r.axes = [s] ∧ (u = false → SignalAxis xlst P s)) ∧ IsSpectrum data xlst P r.data 0 0 := by
  obtain ⟨m, og, wm, nav, axes, sig, h1, h2, h3, h4, h5, h6, h7, h8, h9⟩ := scan_read h hr hs hread
  have hnav : nav = [] := by
    unfold navAxes at h5
    rcases ht with rfl | rfl
    · rw [show (head P cap N 0 hdr).kind = .unspecified from rfl] at h5
      injection h5 with h5
      exact h5.symm
    · rw [show (head P cap N 1 hdr).kind = .single from rfl] at h5
      injection h5 with h5
      exact h5.symm
  rw [hnav] at h6
  injection h6 with h6
  rw [← h6] at h8 h9
  have := scan_spectra (nav := []) (h := head P cap N type hdr) hs.two (by
    rcases hc with hc | hc
    · exact Or.inr hc
    · left; unfold Header.unfinished; simpa using fun e => hc e.symm) (by simpa [size] using hN) h9
  refine ⟨this.1, by rw [this.2.1]; simp [size], ⟨sig, h8, scan_signal h hs h7⟩, this.2.2 0 (by simp [size])⟩

/-- C79: a file of the type "single" with several spectra (accumulations): their mean. -/
theorem C79_mean {f : Bytes} {bs : List Block} {hdr xlst data : Bytes} {P N type rounds : Nat} {u : Bool} {r : Result}
    (h : Wdf f bs) (hr : bs.length < rounds) (hs : Scan bs hdr xlst data P N N type) (ht : type = 0 ∨ type = 1) (hN : 1 < N)
    (hread : fileReader rounds f false u = some (.ok r)) :
    r.shape = [P] ∧ r.data.length = P ∧ (∃ s, r.axes = [s] ∧ (u = false → SignalAxis xlst P s)) ∧
    ∀ k < P, r.data[k]? = some (.mean (((List.range N).map fun n => f32Dec (num data (4 * (n * P + source xlst P k)) 4)).sum / (N : Rat))) := by
  obtain ⟨m, og, wm, nav, axes, sig, h1, h2, h3, h4, h5, h6, h7, h8, h9⟩ := scan_read h hr hs hread
  have hnav : nav = [] := by
    unfold navAxes at h5
    rcases ht with rfl | rfl
    · rw [show (head P N N 0 hdr).kind = .unspecified from rfl] at h5
      injection h5 with h5
      exact h5.symm
    · rw [show (head P N N 1 hdr).kind = .single from rfl] at h5
      injection h5 with h5
      exact h5.symm
  rw [hnav] at h6
  injection h6 with h6
  rw [← h6] at h8 h9
  have hunf : (head P N N type hdr).unfinished = false := by unfold Header.unfinished; simp
  have hP := hs.two
  obtain ⟨D, hD⟩ : ∃ D, D = (List.range (P * N)).map fun k => num data (4 * k) 4 := ⟨_, rfl⟩
  have hlen : D.length = P * N := by rw [hD]; simp
  have hdiv : D.length / N = P := by rw [hlen]; exact Nat.mul_div_cancel _ (by omega)
  have hmean : meanRows N D = .ok ((List.range P).map fun k =>
      .mean (((List.range N).map fun n => f32Dec (num data (4 * (n * P + k)) 4)).sum / (N : Rat))) := by
    unfold meanRows
    rw [hdiv, if_neg (by rw [hlen, Nat.mul_mod_left]; omega)]
    apply congrArg
    apply List.map_congr_left
    intro k hk
    rw [List.mem_range] at hk
    apply congrArg
    apply congrArg (· / (N : Rat))
    apply congrArg
    apply List.map_congr_left
    intro n hn
    rw [List.mem_range] at hn
    apply congrArg
    have : n * P + k < P * N := by
      calc n * P + k < n * P + P := by omega
        _ = (n + 1) * P := by rw [Nat.succ_mul]
        _ ≤ N * P := Nat.mul_le_mul_right _ hn
        _ = P * N := Nat.mul_comm _ _
    rw [hD, List.getD_eq_getElem?_getD, List.getElem?_map, List.getElem?_range this]
    rfl
  rw [← hD] at h9
  unfold reshape at h9
  rw [show ([sig] : List Axis).dropLast.map Axis.size = [] from rfl, if_pos (by rw [hunf]; exact ⟨by simp, by simp [size]; omega⟩)] at h9
  rw [show (head P N N type hdr).spectra = N from rfl, hmean] at h9
  dsimp only [bind, Except.bind] at h9
  rw [show size ([] ++ [P]) = P from by simp [size], if_neg (by simp)] at h9
  injection h9 with h9
  injection h9 with e1 e2
  rw [List.take_of_length_le (by simp)] at e2
  refine ⟨e1.symm, ?_, ⟨sig, h8, scan_signal h hs h7⟩, ?_⟩
  · rw [← e2]
    split
    · simp [flipLast]
    · simp
  · intro k hk
    rw [← e2, source_eq]
    cases turned xlst with
    | false =>
      rw [if_neg (by simp), List.getElem?_map, List.getElem?_range hk]
      rfl
    | true =>
      rw [if_pos rfl, if_pos rfl]
      unfold flipLast
      rw [List.length_map, List.length_range, List.getElem?_map, List.getElem?_range hk, Option.map_some, Nat.div_eq_of_lt hk, Nat.mod_eq_of_lt hk,
        Nat.zero_mul, Nat.zero_add, List.getD_eq_getElem?_getD, List.getElem?_map, List.getElem?_range (by omega)]
      rfl

/-! Files that can be read. -/

theorem plain_none {f : Bytes} {bs : List Block} (h : Wdf f bs) (l : String) (u : Nat) {k : Text} (hk : title l.toList u = k)
    (hn : ∀ b ∈ bs, b.label ≠ l.toList) : getKw k (place 0 bs []) = none := by
  rw [← hk]
  exact wdf_missing h fun b hb hh => hn b hb hh.1

theorem plain_one {f : Bytes} {bs : List Block} (h : Wdf f bs) (hp : Plain bs) (l : String) (u : Nat) {k : Text} (hk : title l.toList u = k)
    (hl : l.toList ∈ ["WXIS".toList, "WXCS".toList, "WXDA".toList, "ZLDC".toList, "WARP".toList]) :
    getKw k (place 0 bs []) = none ∨ ∃ es extra, Found f (place 0 bs []) k (pset es extra) ∧ es ≠ [] ∧ (Node.nested es).Ok := by
  by_cases hb : ∃ b ∈ bs, b.label = l.toList ∧ b.uid = u
  · obtain ⟨b, h1, h2, h3⟩ := hb
    right
    obtain ⟨es, extra, g1, g2, g3⟩ := (hp b h1).1 (by rw [h2]; exact hl)
    refine ⟨es, extra, ?_, g2, g3⟩
    have := wdf_found h h1
    rwa [h2, h3, hk, g1] at this
  · left
    rw [← hk]
    exact wdf_missing h fun b h1 h2 => hb ⟨b, h1, h2⟩

theorem plain_meta {f : Bytes} {bs : List Block} (h : Wdf f bs) (hp : Plain bs) : ∃ m, readMeta f (place 0 bs []) = .ok m := by
  have hx := plain_none h "WXDM" 0 (k := "WXDM_0".toList) (by decide) fun b hb => (hp b hb).2.1
  refine readMeta_ok ?_ hx (plain_none h "MAP" 0 (by decide) fun b hb => (hp b hb).2.2.1)
    (plain_none h "MAP" 1 (by decide) fun b hb => (hp b hb).2.2.1)
  intro i hi
  simp only [metaIds, List.mem_cons, List.not_mem_nil, or_false] at hi
  rcases hi with rfl | rfl | rfl | rfl | rfl | rfl | rfl
  · exact plain_one h hp "WXIS" 0 (by decide) (by decide)
  · exact plain_one h hp "WXCS" 0 (by decide) (by decide)
  · exact plain_one h hp "WXDA" 0 (by decide) (by decide)
  · exact plain_one h hp "ZLDC" 0 (by decide) (by decide)
  · exact plain_one h hp "WARP" 0 (by decide) (by decide)
  · exact plain_one h hp "WARP" 1 (by decide) (by decide)
  · exact Or.inl hx

theorem plain_load {f : Bytes} {bs : List Block} {hdr xlst data : Bytes} {P cap N type rounds : Nat} (u : Bool)
    (h : Wdf f bs) (hr : bs.length < rounds) (hs : Scan bs hdr xlst data P cap N type) (hp : Plain bs)
    {orgn} (ho : readOrgn f (place 0 bs []) (head P cap N type hdr) = .ok orgn)
    {wmap} (hw : readWmap f (place 0 bs []) = .ok wmap) {nav} (hn : navAxes (head P cap N type hdr) orgn wmap = .ok nav)
    (ha : ∀ sig : Axis, sig.size = P → ∃ axes, setAxes sig nav = .ok axes ∧
      (cap ≠ N ∨ N = size (axes.dropLast.map Axis.size)) ∧ size (axes.dropLast.map Axis.size) ≤ N) :
    ∃ r, fileReader rounds f false u = some (.ok r) := by
  obtain ⟨m, hm⟩ := plain_meta h hp
  obtain ⟨r, hr'⟩ := readFile_make (has_found h hs.header (by decide)) hs.head (has_found h hs.signal (by decide)) hs.signalLen hs.two
    (has_found h hs.stored (by decide)) hs.dataLen (plain_none h "YLST" 0 (by decide) fun b hb => (hp b hb).2.2.2) hm ho hw hn ha (u := u)
  exact ⟨r, by rw [reader_eq h hr, hr']⟩

theorem setKw_mem {α : Type} {k : Text} {v : α} {p : Text × α} : ∀ {d : List (Text × α)}, p ∈ setKw k v d → p ∈ d ∨ p = (k, v)
  | [], hp => by
    rw [setKw, List.mem_singleton] at hp
    exact Or.inr hp
  | (k', v') :: d, hp => by
    unfold setKw at hp
    split at hp
    · rcases List.mem_cons.mp hp with hp | hp
      · exact Or.inr hp
      · exact Or.inl (List.mem_cons_of_mem _ hp)
    · rcases List.mem_cons.mp hp with hp | hp
      · exact Or.inl (by rw [hp]; exact List.mem_cons_self)
      · rcases setKw_mem hp with hp | hp
        · exact Or.inl (List.mem_cons_of_mem _ hp)
        · exact Or.inr hp

theorem getKw_some_mem {α : Type} {k : Text} {v : α} : ∀ {d : List (Text × α)}, getKw k d = some v → (k, v) ∈ d
  | [], hh => by cases hh
  | (k', v') :: d, hh => by
    unfold getKw at hh
    split at hh
    · rename_i hk
      injection hh with hh
      rw [hk, hh]
      exact List.mem_cons_self
    · exact List.mem_cons_of_mem _ (getKw_some_mem hh)

/-- The units of the entries. -/
theorem fold_units {uu : Nat} : ∀ (es : List Entry) (nav : List (Text × Origin)),
    (∀ e ∈ es, e.type ≠ 11 → e.type ≠ 16 → e.type ≠ 17 → e.unit = uu) → (∀ p ∈ nav, p.1 = "Time".toList ∨ p.2.units = unitText uu) →
    ∀ p ∈ es.foldl addOrigin nav, p.1 = "Time".toList ∨ p.2.units = unitText uu
  | [], _, _, hn => hn
  | e :: es, nav, he, hn => by
    rw [List.foldl_cons]
    apply fold_units es _ fun x hx => he x (List.mem_cons_of_mem _ hx)
    unfold addOrigin
    split
    · exact hn
    · rename_i hty
      rw [not_or] at hty
      intro p hp
      rcases setKw_mem hp with hp | hp
      · exact hn p hp
      · rw [hp]
        by_cases ht : e.type = 11
        · exact Or.inl ((typeName_time _).mpr ht)
        · right
          have := he e List.mem_cons_self ht hty.1 hty.2
          unfold toOrigin
          rw [this]

/-- An entry that is kept. -/
theorem fold_keeps {e : Entry} (h1 : e.type ≠ 16) (h2 : e.type ≠ 17) : ∀ (es : List Entry) (nav : List (Text × Origin)),
    (e ∈ es ∨ getKw (typeName e.type) nav ≠ none) → getKw (typeName e.type) (es.foldl addOrigin nav) ≠ none
  | [], nav, hn => by
    rcases hn with hn | hn
    · cases hn
    · exact hn
  | x :: es, nav, hn => by
    rw [List.foldl_cons]
    apply fold_keeps h1 h2 es
    by_cases hx : e ∈ es
    · exact Or.inl hx
    · right
      have key : ∀ y : Entry, getKw (typeName e.type) nav ≠ none → getKw (typeName e.type) (addOrigin nav y) ≠ none := by
        intro y hy
        unfold addOrigin
        split
        · exact hy
        · rw [getKw_setKw]
          split
          · simp
          · exact hy
      rcases hn with hn | hn
      · rcases List.mem_cons.mp hn with hn | hn
        · subst hn
          unfold addOrigin
          rw [if_neg (by simp [h1, h2]), getKw_setKw, if_pos rfl]
          simp
        · exact absurd hn hx
      · exact key x hn

/-- C79: maps are read. -/
theorem C79_loads_map {f : Bytes} {bs : List Block} {hdr xlst data wmap orgn : Bytes} {P cap N X Y fl rounds : Nat} {ox oy sx sy : Rat}
    {es : List Entry} (u : Bool)
    (h : Wdf f bs) (hr : bs.length < rounds) (hs : Scan bs hdr xlst data P cap N 3) (hw : Has bs "WMAP" 0 wmap) (hm : Map wmap fl X Y ox oy sx sy)
    (hN : (cap = N ∧ N = X * Y) ∨ cap ≠ N) (hfl : fl ≠ 128) (ho : Has bs "ORGN" 0 orgn) (h0 : 0 < N) (hes : Orgn orgn N es)
    (he : ∃ e ∈ es, e.type ≠ 11 ∧ e.type ≠ 16 ∧ e.type ≠ 17) (hp : Plain bs) :
    ∃ r, fileReader rounds f false u = some (.ok r) := by
  obtain ⟨e, e1, e2, e3, e4⟩ := he
  have hread := readOrgn_found (h := head P cap N 3 hdr) (has_found h ho (by decide)) hes h0 _ rfl
  rw [if_pos (Or.inl (show (head P cap N 3 hdr).kind ≠ Kind.series by simp [kindOf]))] at hread
  have hk := fold_keeps e3 e4 es [] (Or.inl e1)
  cases hv : getKw (typeName e.type) (es.foldl addOrigin []) with
  | none => exact absurd hv hk
  | some v =>
    have hd : (typeName e.type, v) ∈ delKw "Time".toList (es.foldl addOrigin []) :=
      List.mem_filter.mpr ⟨getKw_some_mem hv, by simpa using fun hh => e2 ((typeName_time _).mp hh)⟩
    cases hL : delKw "Time".toList (es.foldl addOrigin []) with
    | nil => rw [hL] at hd; cases hd
    | cons p rest =>
      rw [hL] at hread
      obtain ⟨k, o⟩ := p
      refine plain_load u h hr hs hp hread (readWmap_found (has_found h hw (by decide)) hm)
        (nav := navWmap (head P cap N 3 hdr) ⟨fl, [ox, oy], [sx, sy], [X, Y]⟩ o.units) rfl ?_
      intro sig _
      unfold navWmap
      dsimp only
      rw [if_neg hfl, setAxes_xy]
      refine ⟨_, rfl, ?_⟩
      have hunf : (head P cap N 3 hdr).unfinished = decide (N ≠ cap) := rfl
      rcases hN with ⟨rfl, hN⟩ | hN
      · rw [hunf]
        have : size [Y, X] = cap := by rw [hN]; simp [size, Nat.mul_comm]
        simp only [ne_eq, not_true_eq_false, decide_false, Bool.false_eq_true, if_false]
        exact ⟨Or.inr this.symm, this.le⟩
      · rw [hunf]
        have : size [N / X, X] ≤ N := by simpa [size] using Nat.div_mul_le_self N X
        rw [if_pos (by simpa using fun e => hN e.symm)]
        exact ⟨Or.inl hN, this⟩

theorem along_mem {es : List Entry} {e : Entry} (ha : Along es e) : e ∈ es := by
  rcases ha with ha | ⟨t, _, _, ha | ha⟩
  · exact List.mem_of_mem_filter (by rw [ha]; simp)
  · exact List.mem_of_mem_filter (by rw [ha]; simp)
  · exact List.mem_of_mem_filter (by rw [ha]; simp)

theorem orgn_length {orgn : Bytes} {N : Nat} {es : List Entry} {e : Entry} (hes : Orgn orgn N es) (he : e ∈ es) : e.values.length = N := by
  obtain ⟨i, hi, hei⟩ := List.mem_iff_getElem.mp he
  have := (hes.2.2 i hi).1
  rwa [hei] at this

theorem originAxis_ok {e : Entry} {N : Nat} (hl : e.values.length = N) (hN : 0 < N) (hnote : ∀ c ∈ e.note, c.toNat < 128) :
    ∃ a, originAxis (typeName e.type) (toOrigin e) = .ok a ∧ a.size = N := by
  have ha : (toOrigin e).annotation = true := by
    unfold toOrigin
    dsimp only
    rw [decode_ascii hnote]
    rfl
  have hd : (toOrigin e).data.length = N := by unfold toOrigin; simp [hl]
  unfold originAxis
  rw [if_neg (by rw [ha]; simp)]
  cases meanDiff (toOrigin e).data with
  | none =>
    dsimp only
    split
    · exact ⟨_, rfl, hd⟩
    · cases hdd : (toOrigin e).data with
      | nil => rw [hdd, List.length_nil] at hd; omega
      | cons x l => exact ⟨_, rfl, by rw [← hdd]; exact hd⟩
  | some s =>
    dsimp only
    split
    · exact ⟨_, rfl, hd⟩
    · exact ⟨_, rfl, hd⟩

/-- C79: series are read. -/
theorem C79_loads_series {f : Bytes} {bs : List Block} {hdr xlst data orgn : Bytes} {P cap N rounds : Nat} {es : List Entry} {e : Entry} (u : Bool)
    (h : Wdf f bs) (hr : bs.length < rounds) (hs : Scan bs hdr xlst data P cap N 2) (ho : Has bs "ORGN" 0 orgn) (hN : 0 < N) (hes : Orgn orgn N es)
    (ha : Along es e) (hnote : ∀ c ∈ e.note, c.toNat < 128) (hw : ∀ b ∈ bs, b.label ≠ "WMAP".toList) (hp : Plain bs) :
    ∃ r, fileReader rounds f false u = some (.ok r) := by
  obtain ⟨a, h1, h2⟩ := originAxis_ok (orgn_length hes (along_mem ha)) hN hnote
  refine plain_load u h hr hs hp (readOrgn_along (h := head P cap N 2 hdr) (has_found h ho (by decide)) hes hN rfl ha) (wmap := none) ?_
    (nav := [(typeName e.type, a)]) ?_ ?_
  · unfold readWmap
    rw [plain_none h "WMAP" 0 (by decide) hw]
  · unfold navAxes
    rw [show (head P cap N 2 hdr).kind = .series from rfl]
    dsimp only
    rw [List.mapM_cons, List.mapM_nil, h1]
    rfl
  · intro sig _
    refine ⟨[a, sig], rfl, ?_⟩
    have : size (([a, sig] : List Axis).dropLast.map Axis.size) = N := by simp [size, h2]
    rw [this]
    exact ⟨Or.inr rfl, le_rfl⟩

/-- C79: single spectra are read. -/
theorem C79_loads_single {f : Bytes} {bs : List Block} {hdr xlst data : Bytes} {P cap N type rounds : Nat} (u : Bool)
    (h : Wdf f bs) (hr : bs.length < rounds) (hs : Scan bs hdr xlst data P cap N type) (ht : type = 0 ∨ type = 1) (hN : 1 ≤ N)
    (hc : N = 1 ∨ cap ≠ N) (hw : ∀ b ∈ bs, b.label ≠ "WMAP".toList ∧ b.label ≠ "ORGN".toList) (hp : Plain bs) :
    ∃ r, fileReader rounds f false u = some (.ok r) := by
  refine plain_load u h hr hs hp (orgn := []) ?_ (wmap := none) ?_ (nav := []) ?_ ?_
  · unfold readOrgn
    rw [plain_none h "ORGN" 0 (by decide) fun b hb => (hw b hb).2]
  · unfold readWmap
    rw [plain_none h "WMAP" 0 (by decide) fun b hb => (hw b hb).1]
  · rcases ht with rfl | rfl <;> rfl
  · intro sig _
    refine ⟨[sig], rfl, ?_, by simpa [size] using hN⟩
    rcases hc with hc | hc
    · exact Or.inr hc
    · exact Or.inl hc

/-! C80: calibration. -/

theorem units_eq {n : Nat} (h : n < 26) : unitText n = (unitName n).toList := by
  have key : ∀ n < 26, unitText n = (unitName n).toList := by decide
  exact key n h

theorem quantity_eq {n : Nat} (h : n < 28) (hq : quantity n ≠ "") : typeName n = (quantity n).toList := by
  have key : ∀ n < 28, quantity n ≠ "" → typeName n = (quantity n).toList := by decide
  exact key n h hq

/-- C80: point (x, y) of a map is at the positions of the block `WMAP`, in the units of the entries of `ORGN`. -/
theorem C80_map {f : Bytes} {bs : List Block} {hdr xlst data wmap orgn : Bytes} {P cap N X Y fl rounds uu : Nat} {ox oy sx sy : Rat} {u : Bool} {r : Result}
    {es : List Entry}
    (h : Wdf f bs) (hr : bs.length < rounds) (hs : Scan bs hdr xlst data P cap N 3) (hw : Has bs "WMAP" 0 wmap) (hm : Map wmap fl X Y ox oy sx sy)
    (hfl : fl ≠ 128) (ho : Has bs "ORGN" 0 orgn) (h0 : 0 < N) (hes : Orgn orgn N es)
    (hu : ∀ e ∈ es, e.type ≠ 11 → e.type ≠ 16 → e.type ≠ 17 → e.unit = uu) (huu : uu < 26) (hread : fileReader rounds f false u = some (.ok r)) :
    ∃ y x s, r.axes = [y, x, s] ∧ (∀ k : Nat, At y.cal k (oy + sy * k)) ∧ (∀ k : Nat, At x.cal k (ox + sx * k)) ∧
      y.units = some (unitName uu).toList ∧ x.units = some (unitName uu).toList ∧ y.navigate = true ∧ x.navigate = true ∧ s.navigate = false := by
  obtain ⟨m, og, wm, nav, axes, sig, h1, h2, h3, h4, h5, h6, h7, h8, h9⟩ := scan_read h hr hs hread
  rw [readWmap_found (has_found h hw (by decide)) hm] at h4
  injection h4 with h4
  rw [← h4] at h5
  obtain ⟨k, o, rest, g1, g2⟩ := map_axes rfl hfl h5 h6
  have hread := readOrgn_found (h := head P cap N 3 hdr) (has_found h ho (by decide)) hes h0 _ rfl
  rw [if_pos (Or.inl (show (head P cap N 3 hdr).kind ≠ Kind.series by simp [kindOf])), h3] at hread
  injection hread with hread
  have hp : (k, o) ∈ delKw "Time".toList (es.foldl addOrigin []) := by rw [← hread, g1]; exact List.mem_cons_self
  obtain ⟨p1, p2⟩ := List.mem_filter.mp hp
  have huo : o.units = (unitName uu).toList := by
    rw [← units_eq huu]
    rcases fold_units es [] hu (fun _ hh => by cases hh) (k, o) p1 with hh | hh
    · have hh : k = "Time".toList := hh
      simp [hh] at p2
    · exact hh
  rw [g2] at h8
  refine ⟨_, _, sig, h8, fun k => rfl, fun k => rfl, by rw [huo], by rw [huo], rfl, rfl, ?_⟩
  rw [readXlst_raw (has_found h hs.signal (by decide)) hs.signalLen hs.two u] at h7
  injection h7 with h7
  injection h7 with h7 _
  rw [← h7]

/-- C80: a series. The first and the last spectrum are at their positions; if the steps are equal, all spectra are. What is missing:
steps that are not equal (`C80_fails_uneven`), series of one spectrum (`C80_fails_one`), `FocusTrack_Z`, and
quantities with the same value at the beginning and at the end (`C80_fails_return`). -/
theorem C80_series_partial {f : Bytes} {bs : List Block} {hdr xlst data orgn : Bytes} {P cap N rounds : Nat} {es : List Entry} {e : Entry} {u : Bool} {r : Result}
    (h : Wdf f bs) (hr : bs.length < rounds) (hs : Scan bs hdr xlst data P cap N 2) (ho : Has bs "ORGN" 0 orgn) (hN : 2 ≤ N) (hes : Orgn orgn N es)
    (ha : Along es e) (hread : fileReader rounds f false u = some (.ok r)) (h14 : e.type ≠ 14) (hne : e.value (N - 1) ≠ e.value 0)
    (hun : e.unit < 26) (hty : e.type < 28) (hq : quantity e.type ≠ "") :
    ∃ a s, r.axes = [a, s] ∧ a.name = (quantity e.type).toList ∧ a.units = some (unitName e.unit).toList ∧ a.navigate = true ∧
      At a.cal 0 (e.value 0) ∧ At a.cal (N - 1) (e.value (N - 1)) ∧
      ∀ d : Rat, (∀ k < N, e.value k = e.value 0 + d * (k : Rat)) → ∀ k < N, At a.cal k (e.value k) := by
  obtain ⟨a, s, g1, g2, g3, _⟩ := series_axes h hr hs ho (by omega) hes ha hread
  have hl := orgn_length hes (along_mem ha)
  have hN1 : ((N : Rat) - 1) ≠ 0 := by
    have : (2 : Rat) ≤ N := by exact_mod_cast hN
    intro hh
    linarith
  have hmd : meanDiff (toOrigin e).data = some ((e.value (N - 1) - e.value 0) / ((N : Rat) - 1)) := by
    unfold toOrigin
    rw [hl]
    exact meanDiff_range hN
  have hsc : (e.value (N - 1) - e.value 0) / ((N : Rat) - 1) ≠ 0 := div_ne_zero (sub_ne_zero.mpr hne) hN1
  have hhd : (toOrigin e).data.headD 0 = e.value 0 := by
    unfold toOrigin
    rw [hl]
    obtain ⟨M, rfl⟩ : ∃ M, N = M + 1 := ⟨N - 1, by omega⟩
    rw [List.range_succ_eq_map]
    rfl
  unfold originAxis at g1
  split at g1
  · cases g1
  · rw [hmd] at g1
    dsimp only at g1
    rw [if_neg (by
      rintro (hh | hh)
      · exact h14 ((typeName_focus _).mp hh)
      · exact hsc hh)] at g1
    injection g1 with g1
    have hcast : ((N - 1 : Nat) : Rat) = (N : Rat) - 1 := by push_cast [Nat.cast_sub (by omega : 1 ≤ N)]; rfl
    have hcal : a.cal = .uniform (e.value 0) ((e.value (N - 1) - e.value 0) / ((N : Rat) - 1)) := by rw [← g1, ← hhd]
    refine ⟨a, s, g2, by rw [← g1]; exact quantity_eq hty hq, ?_, by rw [← g1], ?_, ?_, ?_⟩
    · rw [← units_eq hun, ← g1]
      rfl
    · rw [hcal]
      show e.value 0 = _
      simp
    · rw [hcal]
      show e.value (N - 1) = _
      rw [hcast]
      field_simp
      ring
    · intro d hd k hk
      rw [hcal]
      show e.value k = _
      have e1 := hd (N - 1) (by omega)
      rw [hcast] at e1
      rw [hd k hk, e1]
      field_simp
      ring

/-- C80: with `use_uniform_signal_axis`, an axis whose stored values are at equal steps has these values. -/
theorem C80_uniform {f : Bytes} {bs : List Block} {hdr xlst data : Bytes} {P cap N type rounds : Nat} {r : Result} {a b : Rat}
    (h : Wdf f bs) (hr : bs.length < rounds) (hs : Scan bs hdr xlst data P cap N type)
    (heq : ∀ k < P, f32Dec (num xlst (8 + 4 * source xlst P k) 4) = a + b * (k : Rat)) (hread : fileReader rounds f false true = some (.ok r)) :
    ∃ s, r.axes.getLast? = some s ∧ s.size = P ∧ s.navigate = false ∧ ∀ k < P, At s.cal k (f32Dec (num xlst (8 + 4 * source xlst P k) 4)) := by
  obtain ⟨m, og, wm, nav, axes, sig, h1, h2, h3, h4, h5, h6, h7, h8, h9⟩ := scan_read h hr hs hread
  refine ⟨sig, ?_, ?_⟩
  · rw [h8]
    unfold setAxes at h6
    split at h6
    · injection h6 with h6; rw [← h6]; rfl
    · injection h6 with h6; rw [← h6]; rfl
    · split at h6
      · injection h6 with h6; rw [← h6]; rfl
      · cases h6
    · cases h6
  rw [readXlst_raw (has_found h hs.signal (by decide)) hs.signalLen hs.two true] at h7
  injection h7 with h7
  injection h7 with h7 _
  have hv : (signalValues xlst P).map f32Dec = (List.range P).map fun (k : Nat) => a + b * (k : Rat) := by
    unfold signalValues
    rw [List.map_map]
    apply List.map_congr_left
    intro k hk
    exact heq k (List.mem_range.mp hk)
  rw [hv, fit_line hs.two] at h7
  rw [← h7]
  refine ⟨rfl, rfl, ?_⟩
  intro k hk
  exact heq k hk

/-- C80: the name and the unit of the signal axis. -/
theorem C80_signal {f : Bytes} {bs : List Block} {hdr xlst data : Bytes} {P cap N type rounds : Nat} {u : Bool} {r : Result}
    (h : Wdf f bs) (hr : bs.length < rounds) (hs : Scan bs hdr xlst data P cap N type) (hun : num xlst 4 4 < 26)
    (hread : fileReader rounds f false u = some (.ok r)) :
    ∃ s, r.axes.getLast? = some s ∧ s.units = some (unitName (num xlst 4 4)).toList ∧
      (num xlst 4 4 = 1 → s.name = "Raman Shift".toList) ∧ (num xlst 4 4 = 3 → s.name = "Wavelength".toList) := by
  obtain ⟨m, og, wm, nav, axes, sig, h1, h2, h3, h4, h5, h6, h7, h8, h9⟩ := scan_read h hr hs hread
  refine ⟨sig, ?_, ?_⟩
  · rw [h8]
    unfold setAxes at h6
    split at h6
    · injection h6 with h6; rw [← h6]; rfl
    · injection h6 with h6; rw [← h6]; rfl
    · split at h6
      · injection h6 with h6; rw [← h6]; rfl
      · cases h6
    · cases h6
  rw [readXlst_raw (has_found h hs.signal (by decide)) hs.signalLen hs.two u] at h7
  injection h7 with h7
  injection h7 with h7 _
  rw [← h7]
  refine ⟨by rw [← units_eq hun], ?_, ?_⟩
  · intro e; rw [e]; rfl
  · intro e; rw [e]; rfl

/-! Examples. -/

instance (bs : List Block) (hdr xlst data : Bytes) (P cap N t : Nat) : Decidable (Scan bs hdr xlst data P cap N t) :=
  decidable_of_iff (Has bs "WDF1" 1 hdr ∧ Head hdr P cap N t ∧ Has bs "XLST" 0 xlst ∧ 8 + 4 * P ≤ xlst.length ∧ 2 ≤ P ∧ Has bs "DATA" 0 data ∧
    4 * (P * N) ≤ data.length)
    ⟨fun ⟨a, b, c, d, e, f, g⟩ => ⟨a, b, c, d, e, f, g⟩, fun h => ⟨h.1, h.2, h.3, h.4, h.5, h.6, h.7⟩⟩

instance (b : Bytes) (fl X Y : Nat) (ox oy sx sy : Rat) : Decidable (Map b fl X Y ox oy sx sy) :=
  decidable_of_iff (48 ≤ b.length ∧ num b 0 4 = fl ∧ f32Dec (num b 8 4) = ox ∧ f32Dec (num b 12 4) = oy ∧ f32Dec (num b 20 4) = sx ∧
    f32Dec (num b 24 4) = sy ∧ num b 32 4 = X ∧ num b 36 4 = Y)
    ⟨fun ⟨a, b, c, d, e, f, g, i⟩ => ⟨a, b, c, d, e, f, g, i⟩, fun h => ⟨h.1, h.2, h.3, h.4, h.5, h.6, h.7, h.8⟩⟩

instance (b : Bytes) (N : Nat) (es : List Entry) : Decidable (Orgn b N es) := by unfold Orgn; infer_instance

/-- A file with a map of `cap` points of which `N` are stored, with positions on the x axis. -/
def exPlan (flags cap N : Nat) (xs : List Nat) : List Block :=
  [blk "WDF1" 1 (exHdr 2 cap N 3), blk "DATA" 0 (exData 12), blk "XLST" 0 exXlst,
    blk "ORGN" 0 (leBytes 4 1 ++ exOrigin 3 5 xs), blk "WMAP" 0 (exWmap flags)]

/-- The positions of a map measured row by row. -/
def exRows : List Nat := [0x3ff0000000000000, 0x3ff8000000000000, 0x4000000000000000, 0x3ff0000000000000, 0x3ff8000000000000, 0x4000000000000000]

/-- The positions of a map measured to and fro. -/
def exSnake : List Nat := [0x3ff0000000000000, 0x3ff8000000000000, 0x4000000000000000, 0x4000000000000000, 0x3ff8000000000000, 0x3ff0000000000000]

/-- The reader can read the file. -/
def reads (bs : List Block) (u : Bool) : Bool :=
  match fileReader (bs.length + 1) (bs.flatMap Block.bytes) false u with
  | some (.ok _) => true
  | _ => false

theorem reads_ok {bs : List Block} {u : Bool} (h : reads bs u = true) : ∃ r, fileReader (bs.length + 1) (bs.flatMap Block.bytes) false u = some (.ok r) := by
  unfold reads at h
  split at h
  · rename_i r hr
    exact ⟨r, hr⟩
  · cases h

/-- The reader raises this error. -/
def raises (bs : List Block) (u : Bool) (e : PyErr) : Bool :=
  match fileReader (bs.length + 1) (bs.flatMap Block.bytes) false u with
  | some (.error x) => x == e
  | _ => false

theorem raises_error {bs : List Block} {u : Bool} {e : PyErr} (h : raises bs u e = true) :
    fileReader (bs.length + 1) (bs.flatMap Block.bytes) false u = some (.error e) := by
  unfold raises at h
  split at h
  · rename_i x hx
    rw [hx, beq_iff_eq.mp h]
  · cases h

theorem exPlain : Plain exSeries ∧ Plain exSingle ∧ Plain (exPlan 0 6 6 exRows) := by
  have key : ∀ bs : List Block, (∀ b ∈ bs, b.label ∉ ["WXIS".toList, "WXCS".toList, "WXDA".toList, "ZLDC".toList, "WARP".toList] ∧
      b.label ≠ "WXDM".toList ∧ b.label ≠ "MAP".toList ∧ b.label ≠ "YLST".toList) → Plain bs :=
    fun bs h b hb => ⟨fun hl => absurd hl (h b hb).1, (h b hb).2⟩
  exact ⟨key _ (by decide +kernel), key _ (by decide +kernel), key _ (by decide +kernel)⟩

/-- A map whose only metadata are those of `exSet` is plain. -/
theorem exMap_plain : Plain (exMap 0) := by
  intro b hb
  simp only [exMap, List.mem_cons, List.not_mem_nil, or_false] at hb
  rcases hb with rfl | rfl | rfl | rfl | rfl | rfl
  all_goals refine ⟨?_, by decide +kernel⟩
  · intro h; exact absurd h (by decide +kernel)
  · intro h; exact absurd h (by decide +kernel)
  · intro h; exact absurd h (by decide +kernel)
  · intro h; exact absurd h (by decide +kernel)
  · intro h; exact absurd h (by decide +kernel)
  · intro _; exact ⟨exSet, [], rfl, by simp [exSet], exSet_ok⟩

/-- The entry of `ORGN` in `exMap`. -/
abbrev exEntry : Entry := ⟨3, 5, List.replicate 16 65, [0, 0, 0, 0, 0, 0]⟩

-- a map: `C79_map_partial`, `C79_loads_map`, `C80_map`
example : Wdf ((exMap 0).flatMap Block.bytes) (exMap 0) ∧ Scan (exMap 0) (exHdr 2 6 6 3) exXlst (exData 12) 2 6 6 3 ∧
    Has (exMap 0) "WMAP" 0 (exWmap 0) ∧ Map (exWmap 0) 0 3 2 1 2 (1 / 2) 4 ∧ Has (exMap 0) "ORGN" 0 (leBytes 4 1 ++ exOrigin 3 5 [0, 0, 0, 0, 0, 0]) ∧
    Orgn (leBytes 4 1 ++ exOrigin 3 5 [0, 0, 0, 0, 0, 0]) 6 [exEntry] ∧ Plain (exMap 0) ∧ ∃ r, fileReader 7 ((exMap 0).flatMap Block.bytes) false false = some (.ok r) := by
  have hw := exMap_wdf
  have hs : Scan (exMap 0) (exHdr 2 6 6 3) exXlst (exData 12) 2 6 6 3 := by decide +kernel
  have hm : Map (exWmap 0) 0 3 2 1 2 (1 / 2) 4 := by decide +kernel
  have ho : Orgn (leBytes 4 1 ++ exOrigin 3 5 [0, 0, 0, 0, 0, 0]) 6 [exEntry] := by decide +kernel
  refine ⟨hw, hs, by decide +kernel, hm, by decide +kernel, ho, exMap_plain, ?_⟩
  exact C79_loads_map false hw (by decide) hs (by decide +kernel) hm (Or.inl ⟨rfl, rfl⟩) (by decide) (by decide +kernel) (by decide) ho
    ⟨exEntry, by simp, by decide, by decide, by decide⟩ exMap_plain

-- an unfinished map: `C79_unfinished`
example : Wdf ((exPlan 0 6 5 (exRows.take 5)).flatMap Block.bytes) (exPlan 0 6 5 (exRows.take 5)) ∧
    Scan (exPlan 0 6 5 (exRows.take 5)) (exHdr 2 6 5 3) exXlst (exData 12) 2 6 5 3 ∧ (6 : Nat) ≠ 5 ∧
    Has (exPlan 0 6 5 (exRows.take 5)) "WMAP" 0 (exWmap 0) ∧ Map (exWmap 0) 0 3 2 1 2 (1 / 2) 4 ∧
    ∃ r, fileReader 6 ((exPlan 0 6 5 (exRows.take 5)).flatMap Block.bytes) false false = some (.ok r) :=
  ⟨⟨rfl, by decide +kernel, by decide +kernel⟩, by decide +kernel, by decide, by decide +kernel, by decide +kernel,
    reads_ok (bs := exPlan 0 6 5 (exRows.take 5)) (by decide +kernel)⟩

-- a line: `C79_line`
example : Wdf ((exPlan 128 3 3 (exRows.take 3)).flatMap Block.bytes) (exPlan 128 3 3 (exRows.take 3)) ∧
    Scan (exPlan 128 3 3 (exRows.take 3)) (exHdr 2 3 3 3) exXlst (exData 12) 2 3 3 3 ∧
    Has (exPlan 128 3 3 (exRows.take 3)) "WMAP" 0 (exWmap 128) ∧ Map (exWmap 128) 128 3 2 1 2 (1 / 2) 4 ∧
    ∃ r, fileReader 6 ((exPlan 128 3 3 (exRows.take 3)).flatMap Block.bytes) false false = some (.ok r) :=
  ⟨⟨rfl, by decide +kernel, by decide +kernel⟩, by decide +kernel, by decide +kernel, by decide +kernel,
    reads_ok (bs := exPlan 128 3 3 (exRows.take 3)) (by decide +kernel)⟩

/-- The entry along which `exSeries` was measured. -/
abbrev exZ : Entry := ⟨5, 5, List.replicate 16 65, [0x3ff0000000000000, 0x4008000000000000, 0x4014000000000000]⟩

/-- The entries of `exSeries`. -/
abbrev exZs : List Entry := [exZ, ⟨16, 0, List.replicate 16 65, [0, 0, 0]⟩, ⟨11, 24, List.replicate 16 65, [5, 6, 7]⟩]

/-- The block `ORGN` of `exSeries`. -/
abbrev exOrgn : Bytes := leBytes 4 3 ++ exOrigin (5 + 2 ^ 31) 5 [0x3ff0000000000000, 0x4008000000000000, 0x4014000000000000] ++
  exOrigin 16 0 [0, 0, 0] ++ exOrigin 11 24 [5, 6, 7]

-- a series: `C79_series_partial`, `C79_loads_series`, `C80_series_partial`
example : Wdf (exSeries.flatMap Block.bytes) exSeries ∧ Scan exSeries (exHdr 2 3 3 2) exXlst (exData 6) 2 3 3 2 ∧ Has exSeries "ORGN" 0 exOrgn ∧
    Orgn exOrgn 3 exZs ∧ Along exZs exZ ∧ exZ.value 2 ≠ exZ.value 0 ∧ (∀ k < 3, exZ.value k = exZ.value 0 + 2 * (k : Rat)) ∧
    ∃ r, fileReader 5 (exSeries.flatMap Block.bytes) false false = some (.ok r) := by
  have hs : Scan exSeries (exHdr 2 3 3 2) exXlst (exData 6) 2 3 3 2 := by decide +kernel
  have ho : Orgn exOrgn 3 exZs := by decide +kernel
  have ha : Along exZs exZ := Or.inr ⟨⟨11, 24, List.replicate 16 65, [5, 6, 7]⟩, rfl, by decide, Or.inl (by decide)⟩
  refine ⟨exSeries_wdf, hs, by decide +kernel, ho, ha, by decide +kernel, by decide +kernel, ?_⟩
  exact C79_loads_series false exSeries_wdf (by decide) hs (by decide +kernel) (by decide) ho ha (by decide) (by decide +kernel) exPlain.1

-- a single spectrum: `C79_single`, `C79_loads_single`; the axis has equal steps: `C80_uniform`, `C80_signal`
example : Wdf (exSingle.flatMap Block.bytes) exSingle ∧ Scan exSingle (exHdr 2 1 1 1) exXlst (exData 2) 2 1 1 1 ∧
    (∀ k < 2, f32Dec (num exXlst (8 + 4 * source exXlst 2 k) 4) = 1 + 1 * (k : Rat)) ∧ num exXlst 4 4 = 1 ∧
    ∃ r, fileReader 4 (exSingle.flatMap Block.bytes) false true = some (.ok r) := by
  have hs : Scan exSingle (exHdr 2 1 1 1) exXlst (exData 2) 2 1 1 1 := by decide +kernel
  exact ⟨exSingle_wdf, hs, by decide +kernel, by decide +kernel,
    C79_loads_single true exSingle_wdf (by decide) hs (Or.inr rfl) le_rfl (Or.inl rfl) (by decide +kernel) exPlain.2.1⟩

/-- The blocks of three accumulations. -/
def exThree : List Block := [blk "WDF1" 1 (exHdr 2 3 3 1), blk "DATA" 0 (exData 6), blk "XLST" 0 exXlst]

-- accumulations: `C79_mean`
example : Wdf (exThree.flatMap Block.bytes) exThree ∧ Scan exThree (exHdr 2 3 3 1) exXlst (exData 6) 2 3 3 1 ∧
    ∃ r, fileReader 4 (exThree.flatMap Block.bytes) false false = some (.ok r) :=
  ⟨⟨rfl, by decide +kernel, by decide +kernel⟩, by decide +kernel, reads_ok (bs := exThree) (by decide +kernel)⟩

/-! What fails. -/

/-- C79 fails: a map that was measured to and fro (`MapType.alternating`): the spectra of every other row are in the wrong order. A spectrum recorded at
x = 2 is at the point of the map with x = 1. -/
theorem C79_fails_snake : ∃ f bs e r y x s, Wdf f bs ∧ Scan bs (exHdr 2 6 6 3) exXlst (exData 12) 2 6 6 3 ∧ Has bs "WMAP" 0 (exWmap 4) ∧
    (∃ b, Has bs "ORGN" 0 b ∧ Orgn b 6 [e]) ∧ e.type = 3 ∧ fileReader 6 f false false = some (.ok r) ∧ r.axes = [y, x, s] ∧
    IsSpectrum (exData 12) exXlst 2 r.data (1 * 3 + 0) 3 ∧ At x.cal 0 1 ∧ e.value 3 = 2 := by
  have hw : Wdf ((exPlan 4 6 6 exSnake).flatMap Block.bytes) (exPlan 4 6 6 exSnake) := ⟨rfl, by decide +kernel, by decide +kernel⟩
  have hs : Scan (exPlan 4 6 6 exSnake) (exHdr 2 6 6 3) exXlst (exData 12) 2 6 6 3 := by decide +kernel
  have hm : Map (exWmap 4) 4 3 2 1 2 (1 / 2) 4 := by decide +kernel
  have hh : Has (exPlan 4 6 6 exSnake) "WMAP" 0 (exWmap 4) := by decide +kernel
  have hb : Has (exPlan 4 6 6 exSnake) "ORGN" 0 (leBytes 4 1 ++ exOrigin 3 5 exSnake) := by decide +kernel
  have ho : Orgn (leBytes 4 1 ++ exOrigin 3 5 exSnake) 6 [⟨3, 5, List.replicate 16 65, exSnake⟩] := by decide +kernel
  obtain ⟨r, hr⟩ := reads_ok (bs := exPlan 4 6 6 exSnake) (u := false) (by decide +kernel)
  have h1 := C79_map_partial hw (by decide) hs hh hm (by decide) rfl hr
  obtain ⟨y, x, s, g1, g2, g3, _⟩ := C80_map (uu := 5) hw (by decide) hs hh hm (by decide) hb (by decide) ho (by simp) (by decide) hr
  refine ⟨_, _, ⟨3, 5, List.replicate 16 65, exSnake⟩, r, y, x, s, hw, hs, hh, ⟨_, hb, ho⟩, rfl, hr, g1, h1.2.2.2 1 (by decide) 0 (by decide), ?_, by decide +kernel⟩
  have := g3 0
  simpa using this

/-- C79 fails: an unfinished measurement along a line cannot be read; the points on the axis are the planned ones. -/
theorem C79_fails_line_unfinished : ∃ f bs, Wdf f bs ∧ Scan bs (exHdr 2 3 2 3) exXlst (exData 12) 2 3 2 3 ∧ Has bs "WMAP" 0 (exWmap 128) ∧
    fileReader 6 f false false = some (.error .valueError) := by
  have hs : Scan (exPlan 128 3 2 (exRows.take 2)) (exHdr 2 3 2 3) exXlst (exData 12) 2 3 2 3 := by decide +kernel
  exact ⟨_, exPlan 128 3 2 (exRows.take 2), ⟨rfl, by decide +kernel, by decide +kernel⟩, hs, by decide +kernel,
    raises_error (bs := exPlan 128 3 2 (exRows.take 2)) (by decide +kernel)⟩

/-- C79 fails: a series in which two quantities X and Y are changed at the same time cannot be read: each of both axes gets as many points as there are
spectra. -/
theorem C79_fails_two : ∃ f bs b es, Wdf f bs ∧ Scan bs (exHdr 2 3 3 2) exXlst (exData 6) 2 3 3 2 ∧ Has bs "ORGN" 0 b ∧ Orgn b 3 es ∧
    es.map Entry.type = [3, 4] ∧ fileReader 5 f false false = some (.error .valueError) := by
  refine ⟨_, [blk "WDF1" 1 (exHdr 2 3 3 2), blk "DATA" 0 (exData 6), blk "XLST" 0 exXlst,
    blk "ORGN" 0 (leBytes 4 2 ++ exOrigin 3 5 (exRows.take 3) ++ exOrigin 4 5 (exRows.take 3))], _,
    [⟨3, 5, List.replicate 16 65, exRows.take 3⟩, ⟨4, 5, List.replicate 16 65, exRows.take 3⟩],
    ⟨rfl, by decide +kernel, by decide +kernel⟩, by decide +kernel, ⟨_, List.mem_cons_of_mem _ (List.mem_cons_of_mem _ (List.mem_cons_of_mem _ List.mem_cons_self)),
      by decide, rfl, rfl⟩, by decide +kernel, rfl, raises_error (bs := [blk "WDF1" 1 (exHdr 2 3 3 2), blk "DATA" 0 (exData 6), blk "XLST" 0 exXlst,
    blk "ORGN" 0 (leBytes 4 2 ++ exOrigin 3 5 (exRows.take 3) ++ exOrigin 4 5 (exRows.take 3))]) (by decide +kernel)⟩

/-- C79 fails: spectra of one point cannot be read. -/
theorem C79_fails_point : ∃ f bs, Wdf f bs ∧ Has bs "WDF1" 1 (exHdr 1 1 1 1) ∧ Has bs "XLST" 0 (exXlst.take 12) ∧ Has bs "DATA" 0 (exData 1) ∧
    fileReader 4 f false false = some (.error .indexError) :=
  ⟨_, [blk "WDF1" 1 (exHdr 1 1 1 1), blk "DATA" 0 (exData 1), blk "XLST" 0 (exXlst.take 12)], ⟨rfl, by decide +kernel, by decide +kernel⟩,
    by decide +kernel, by decide +kernel, by decide +kernel,
    raises_error (bs := [blk "WDF1" 1 (exHdr 1 1 1 1), blk "DATA" 0 (exData 1), blk "XLST" 0 (exXlst.take 12)]) (by decide +kernel)⟩

/-- A series with one entry. -/
def exAlong (N type unit : Nat) (note : Bytes) (vs : List Nat) : List Block :=
  [blk "WDF1" 1 (exHdr 2 N N 2), blk "DATA" 0 (exData 6), blk "XLST" 0 exXlst,
    blk "ORGN" 0 (leBytes 4 1 ++ leBytes 4 type ++ leBytes 4 unit ++ note ++ vs.flatMap (leBytes 8))]

/-- The block `ORGN` of `exAlong`. -/
def alongBytes (type unit : Nat) (note : Bytes) (vs : List Nat) : Bytes :=
  leBytes 4 1 ++ leBytes 4 type ++ leBytes 4 unit ++ note ++ vs.flatMap (leBytes 8)

/-- The first axis of the result. -/
def firstAxis (bs : List Block) : Option Axis :=
  match fileReader (bs.length + 1) (bs.flatMap Block.bytes) false false with
  | some (.ok r) => r.axes.head?
  | _ => none

theorem firstAxis_some {bs : List Block} {a : Axis} (h : firstAxis bs = some a) :
    ∃ r, fileReader (bs.length + 1) (bs.flatMap Block.bytes) false false = some (.ok r) ∧ r.axes.head? = some a := by
  unfold firstAxis at h
  split at h
  · rename_i r hr
    exact ⟨r, hr, h⟩
  · cases h

/-- C80 fails: the steps of a series that are not equal. The second spectrum, recorded at 1.5, is at 2.5 on the axis. -/
theorem C80_fails_uneven : ∃ f bs e r a, Wdf f bs ∧ Scan bs (exHdr 2 3 3 2) exXlst (exData 6) 2 3 3 2 ∧ (∃ b, Has bs "ORGN" 0 b ∧ Orgn b 3 [e]) ∧
    Along [e] e ∧ e.type = 5 ∧ fileReader 5 f false false = some (.ok r) ∧ r.axes.head? = some a ∧ At a.cal 1 (5 / 2) ∧ e.value 1 = 3 / 2 := by
  obtain ⟨r, h1, h2⟩ := firstAxis_some (bs := exAlong 3 5 5 (List.replicate 16 65) [0x3ff0000000000000, 0x3ff8000000000000, 0x4010000000000000])
    (a := ⟨"Z".toList, some "µm".toList, 3, true, .uniform 1 (3 / 2)⟩) (by decide +kernel)
  refine ⟨_, _, ⟨5, 5, List.replicate 16 65, [0x3ff0000000000000, 0x3ff8000000000000, 0x4010000000000000]⟩, r, _,
    ⟨rfl, by decide +kernel, by decide +kernel⟩, by decide +kernel,
    ⟨alongBytes 5 5 (List.replicate 16 65) [0x3ff0000000000000, 0x3ff8000000000000, 0x4010000000000000], by decide +kernel, by decide +kernel⟩,
    Or.inl (by decide), rfl, h1, h2, ?_, by decide +kernel⟩
  show (5 / 2 : Rat) = 1 + 3 / 2 * ((1 : Nat) : Rat)
  norm_num

/-- C80 fails: a quantity that comes back to its first value gets an axis of numbers 0, 1, 2 without a unit ("is invariant"). -/
theorem C80_fails_return : ∃ f bs e r a, Wdf f bs ∧ Scan bs (exHdr 2 3 3 2) exXlst (exData 6) 2 3 3 2 ∧ (∃ b, Has bs "ORGN" 0 b ∧ Orgn b 3 [e]) ∧
    Along [e] e ∧ e.type = 9 ∧ e.value 1 ≠ e.value 0 ∧ fileReader 5 f false false = some (.ok r) ∧ r.axes.head? = some a ∧ a.cal = .index ∧ a.units = none := by
  obtain ⟨r, h1, h2⟩ := firstAxis_some (bs := exAlong 3 9 10 (List.replicate 16 65) [0x3ff0000000000000, 0x3ff8000000000000, 0x3ff0000000000000])
    (a := ⟨"Temperature".toList, none, 3, true, .index⟩) (by decide +kernel)
  exact ⟨_, _, ⟨9, 10, List.replicate 16 65, [0x3ff0000000000000, 0x3ff8000000000000, 0x3ff0000000000000]⟩, r, _,
    ⟨rfl, by decide +kernel, by decide +kernel⟩, by decide +kernel,
    ⟨alongBytes 9 10 (List.replicate 16 65) [0x3ff0000000000000, 0x3ff8000000000000, 0x3ff0000000000000], by decide +kernel, by decide +kernel⟩,
    Or.inl (by decide), rfl, by decide +kernel, h1, h2, rfl, rfl⟩

/-- C80 fails: times are recorded as Windows file times, in steps of 100 ns, but the axis has the unit "ns". Ten million steps are a second; on the axis they
are 10^7 ns. -/
theorem C80_fails_time : ∃ f bs e r a, Wdf f bs ∧ Scan bs (exHdr 2 3 3 2) exXlst (exData 6) 2 3 3 2 ∧ (∃ b, Has bs "ORGN" 0 b ∧ Orgn b 3 [e]) ∧
    Along [e] e ∧ e.type = 11 ∧ e.unit = 24 ∧ e.values = [0, 10000000, 20000000] ∧ fileReader 5 f false false = some (.ok r) ∧ r.axes.head? = some a ∧
    a.units = some "ns".toList ∧ At a.cal 1 10000000 := by
  obtain ⟨r, h1, h2⟩ := firstAxis_some (bs := exAlong 3 11 24 (List.replicate 16 65) [0, 10000000, 20000000])
    (a := ⟨"Time".toList, some "ns".toList, 3, true, .uniform 0 10000000⟩) (by decide +kernel)
  refine ⟨_, _, ⟨11, 24, List.replicate 16 65, [0, 10000000, 20000000]⟩, r, _,
    ⟨rfl, by decide +kernel, by decide +kernel⟩, by decide +kernel,
    ⟨alongBytes 11 24 (List.replicate 16 65) [0, 10000000, 20000000], by decide +kernel, by decide +kernel⟩,
    Or.inl (by decide), rfl, rfl, rfl, h1, h2, rfl, ?_⟩
  show (10000000 : Rat) = 0 + 10000000 * ((1 : Nat) : Rat)
  norm_num

/-- C80 fails: the scale of the axis of a series with one spectrum is not a number. -/
theorem C80_fails_one : ∃ f bs e r a, Wdf f bs ∧ Scan bs (exHdr 2 1 1 2) exXlst (exData 6) 2 1 1 2 ∧ (∃ b, Has bs "ORGN" 0 b ∧ Orgn b 1 [e]) ∧
    Along [e] e ∧ e.type = 5 ∧ fileReader 5 f false false = some (.ok r) ∧ r.axes.head? = some a ∧ a.cal = .undefined (e.value 0) := by
  obtain ⟨r, h1, h2⟩ := firstAxis_some (bs := exAlong 1 5 5 (List.replicate 16 65) [0x3ff0000000000000])
    (a := ⟨"Z".toList, some "µm".toList, 1, true, .undefined 1⟩) (by decide +kernel)
  exact ⟨_, _, ⟨5, 5, List.replicate 16 65, [0x3ff0000000000000]⟩, r, _,
    ⟨rfl, by decide +kernel, by decide +kernel⟩, by decide +kernel,
    ⟨alongBytes 5 5 (List.replicate 16 65) [0x3ff0000000000000], by decide +kernel, by decide +kernel⟩,
    Or.inl (by decide), rfl, h1, h2, by decide +kernel⟩

/-- C80 fails: a series whose annotation cannot be decoded (here in Latin 1, with the degree sign) cannot be read: the annotation is left out with a message, and then the
code deletes it. -/
theorem C80_fails_note : ∃ f bs e, Wdf f bs ∧ Scan bs (exHdr 2 3 3 2) exXlst (exData 6) 2 3 3 2 ∧ (∃ b, Has bs "ORGN" 0 b ∧ Orgn b 3 [e]) ∧
    Along [e] e ∧ e.note = 176 :: List.replicate 15 65 ∧ fileReader 5 f false false = some (.error .keyError) :=
  ⟨_, _, ⟨9, 10, 176 :: List.replicate 15 65, exRows.take 3⟩, ⟨rfl, by decide +kernel, by decide +kernel⟩, by decide +kernel,
    ⟨alongBytes 9 10 (176 :: List.replicate 15 65) (exRows.take 3), by decide +kernel, by decide +kernel⟩, Or.inl (by decide), rfl,
    raises_error (bs := exAlong 3 9 10 (176 :: List.replicate 15 65) (exRows.take 3)) (by decide +kernel)⟩

end Verif.Props.Renishaw
