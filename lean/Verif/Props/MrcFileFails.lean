import Verif.Props.MrcFile
/-! MRC files: examples of the theorems, and cases where the claims do not hold. -/
namespace Verif.Props.MrcFile
open Verif Verif.MrcFile

/-! ### Sample files -/

def word (big : Bool) (n : Nat) : List UInt8 := if big then beBytes 4 n else leBytes 4 n

theorem word_length (big : Bool) (n : Nat) : (word big n).length = 4 := by cases big <;> rfl

theorem has4_word {big : Bool} : ∀ {ws : List Nat} {i v : Nat} {d : List UInt8}, ws[i]? = some v → v < 2 ^ 32 →
    Has4 big (ws.flatMap (word big) ++ d) (4 * i) v
  | w :: ws, 0, v, d, h, hv => by
    injection h with h
    subst h
    refine ⟨hv, ?_⟩
    rw [List.flatMap_cons, List.append_assoc, Nat.mul_zero, List.drop_zero, List.take_left' (word_length big w)]
    rfl
  | w :: ws, i + 1, v, d, h, hv => by
    rw [List.getElem?_cons_succ] at h
    obtain ⟨-, h2⟩ := has4_word (big := big) (d := d) h hv
    refine ⟨hv, ?_⟩
    rw [List.flatMap_cons, List.append_assoc, show 4 * (i + 1) = 4 + 4 * i by ring, ← List.drop_drop,
      List.drop_left' (word_length big w)]
    exact h2

/-- The words of a header: 3 columns, 2 rows, sections, mode, cells of the same numbers, 30, 20 and 0 Ångström. -/
def sampleWords (nz mode : Nat) : List Nat :=
  [3, 2, nz, mode, 0, 0, 0, 3, 2, nz, 0x41F00000, 0x41A00000, 0] ++ List.replicate 10 0 ++ [0] ++ List.replicate 232 0

def sampleHeader (nz mode : Nat) : Header :=
  ⟨3, 2, nz, mode, 3, 2, nz, f32Dec 0x41F00000, f32Dec 0x41A00000, f32Dec 0, 0, f32Dec 0, f32Dec 0, f32Dec 0⟩

def sampleFile (big : Bool) (nz mode : Nat) (data : List UInt8) : List UInt8 := (sampleWords nz mode).flatMap (word big) ++ data

theorem length_words {big : Bool} : ∀ (ws : List Nat), (ws.flatMap (word big)).length = 4 * ws.length
  | [] => rfl
  | w :: ws => by rw [List.flatMap_cons, List.length_append, word_length, length_words ws, List.length_cons]; ring

theorem sample_length (big : Bool) (nz mode : Nat) (data : List UInt8) : (sampleFile big nz mode data).length = 1024 + data.length := by
  unfold sampleFile
  rw [List.length_append, length_words]
  unfold sampleWords
  simp only [List.length_append, List.length_cons, List.length_nil, List.length_replicate]

theorem sample_holds (big : Bool) {nz mode : Nat} (h1 : nz < 2 ^ 32) (h2 : mode < 2 ^ 32) (data : List UInt8) :
    Holds big (sampleFile big nz mode data) (sampleHeader nz mode) where
  full := by rw [sample_length]; exact Nat.le_add_right _ _
  nx := has4_word (v := 3) (ws := sampleWords nz mode) rfl (by decide)
  ny := has4_word (v := 2) (ws := sampleWords nz mode) rfl (by decide)
  nz := has4_word (ws := sampleWords nz mode) rfl h1
  mode := has4_word (ws := sampleWords nz mode) rfl h2
  mx := has4_word (v := 3) (ws := sampleWords nz mode) rfl (by decide)
  my := has4_word (v := 2) (ws := sampleWords nz mode) rfl (by decide)
  mz := has4_word (ws := sampleWords nz mode) rfl h1
  xlen := ⟨_, has4_word (ws := sampleWords nz mode) rfl (by decide), rfl⟩
  ylen := ⟨_, has4_word (ws := sampleWords nz mode) rfl (by decide), rfl⟩
  zlen := ⟨_, has4_word (ws := sampleWords nz mode) rfl (by decide), rfl⟩
  next := has4_word (v := 0) (ws := sampleWords nz mode) rfl (by decide)
  xorigin := ⟨_, has4_word (ws := sampleWords nz mode) rfl (by decide), rfl⟩
  yorigin := ⟨_, has4_word (ws := sampleWords nz mode) rfl (by decide), rfl⟩
  zorigin := ⟨_, has4_word (ws := sampleWords nz mode) rfl (by decide), rfl⟩

def env0 : Env := ⟨fun t => if t = "2".toList then some 2 else if t = "1".toList then some 1 else none, fun t =>
  if t = "2".toList then some 2 else if t = "1".toList then some 1 else none, fun _ => []⟩

/-! ### C138 -/

/-- A file of four images of two rows and three columns is read. -/
example : ∃ s l, reader env0 false (sampleFile false 4 1 (List.replicate 48 0)) none none = .ok s ∧ s.axes = .plain l ∧
    s.shape = [4, 2, 3] ∧ s.data.offset = 1024 ∧ AxesFor false (sampleFile false 4 1 (List.replicate 48 0)) (sampleHeader 4 1) s.shape l := by
  obtain ⟨s, l, h1, h2, -, h3, -, -, -, -, h4, h5⟩ := C138_reads_partial (env := env0) (nav := none) (w := 2) (t := .i2)
    (sample_holds false (nz := 4) (mode := 1) (by decide) (by decide) (List.replicate 48 0)) (by decide) (by decide)
    (by rw [sample_length]; decide) (fun n h => by cases h) (by decide) (by decide)
  exact ⟨s, l, h1, h2, h4, h3, h5⟩

/-- The same as a scan of two by two. -/
example : ∃ s, reader env0 false (sampleFile false 4 1 (List.replicate 48 0)) (some [2, 2]) none = .ok s ∧ s.shape = [2, 2, 2, 3] := by
  obtain ⟨s, l, h1, -, -, -, -, -, -, -, h4, -⟩ := C138_reads_partial (env := env0) (nav := some [2, 2]) (w := 2) (t := .i2)
    (sample_holds false (nz := 4) (mode := 1) (by decide) (by decide) (List.replicate 48 0)) (by decide) (by decide)
    (by rw [sample_length]; decide) (fun n h => by injection h with h; subst h; decide) (by decide) (by decide)
  exact ⟨s, h1, h4⟩

/-- Mode 3 is not known. -/
example : reader env0 false (sampleFile false 4 3 []) none none = .error .valueError :=
  C138_rejects_mode (sample_holds false (nz := 4) (mode := 3) (by decide) (by decide) []) (by decide)

/-- The pixels are missing. -/
example : reader env0 false (sampleFile false 4 1 (List.replicate 47 0)) none none = .error .valueError :=
  C138_rejects_short (t := .i2) (w := 2) (sample_holds false (nz := 4) (mode := 1) (by decide) (by decide) (List.replicate 47 0)) (by decide)
    (by rw [sample_length]; decide)

/-- A file of a hundred bytes. -/
example : reader env0 false (List.replicate 100 0) none none = .error .indexError := C138_rejects_header (by simp)

/-- The byte order that the user gives is that of the header only: the pixels of a big-endian file are read as little-endian. -/
theorem C138_fails_big_endian : ∃ b f s, Holds true b f ∧ reader env0 true b none none = .ok s ∧ s.data.dtype = .i2 ∧
    s.data.bigEndian = false :=
  ⟨_, _, _, sample_holds true (nz := 4) (mode := 1) (by decide) (by decide) (List.replicate 48 0),
    reader_plain (t := .i2) (w := 2) (sample_holds true (by decide) (by decide) _) (by decide) (by rw [sample_length]; decide), rfl, rfl⟩

/-- With the navigation shape `()` of a single image its axes are called z and y. -/
theorem C138_fails_no_navigation : ∃ b f s l, Holds false b f ∧ reader env0 false b (some []) none = .ok s ∧ s.axes = .plain l ∧
    s.shape = [f.ny, f.nx] ∧ l.map (fun a => (a.name, a.size)) = [("z".toList, f.ny), ("y".toList, f.nx)] := by
  refine ⟨_, _, _, _, sample_holds false (nz := 1) (mode := 0) (by decide) (by decide) (List.replicate 6 0),
    reader_plain (t := .u1) (w := 1) (sample_holds false (by decide) (by decide) _) (by decide) (by rw [sample_length]; decide), rfl, rfl, ?_⟩
  rw [fei_none (by decide)]
  rfl

/-! ### C139 -/

def md1 : Meta := [("Scan - Enable".toList, "Enable".toList), ("Scan - Size X".toList, "2".toList), ("Scan - Size Y".toList, "2".toList)]

theorem readable1 : Readable env0 md1 :=
  ⟨rfl, rfl, ⟨1, fun _ => rfl, fun t h => by cases h⟩, ⟨1, fun _ => rfl, fun t h => by cases h⟩, ⟨1, fun _ => rfl, fun t h => by cases h⟩,
    ⟨1, fun _ => rfl, fun t h => by cases h⟩, ⟨-1, ⟨fun _ => rfl, fun t h => by cases h⟩, by decide⟩,
    ⟨-1, ⟨fun _ => rfl, fun t h => by cases h⟩, by decide⟩⟩

/-- A scan of two by two points. -/
example : ∃ s l, reader env0 false (sampleFile false 4 1 (List.replicate 48 0)) none (some ⟨md1, none⟩) = .ok s ∧ s.axes = .de l ∧
    l.map DeAxis.view = scanViews 2 2 3 2 ∧ s.gain = some 1 := by
  obtain ⟨s, l, h1, h2, h3, -, -, -, -, -, -, q, h4, h5⟩ := C139_scan_partial (env := env0) (md := md1) (x := 2) (y := 2) (c := -1) (g := 1) (csv := none) (w := 2)
    (t := .i2) (sample_holds false (nz := 4) (mode := 1) (by decide) (by decide) (List.replicate 48 0)) (by decide) rfl
    (fun t h => by cases h) ⟨-1, ⟨fun _ => rfl, fun t h => by cases h⟩, by decide, fun _ => rfl⟩ readable1
    ⟨(fun h => by cases h), fun _ => ⟨⟨(fun h => by cases h), fun t h => by injection h with h; subst h; rfl⟩,
      ⟨(fun h => by cases h), fun t h => by injection h with h; subst h; rfl⟩⟩⟩
    ⟨fun _ => rfl, fun t h => by cases h⟩ ⟨fun _ => rfl, fun t h => by cases h⟩ (by decide) (by decide) (by decide)
    (by rw [sample_length]; decide)
  exact ⟨s, l, h1, h2, h3, by rw [h4, show q = 1 by linarith]⟩

def md2 : Meta := [("Scan - Enable".toList, "Enable".toList), ("Scan - Type".toList, "Custom".toList)]

theorem readable2 : Readable env0 md2 :=
  ⟨rfl, rfl, ⟨1, fun _ => rfl, fun t h => by cases h⟩, ⟨1, fun _ => rfl, fun t h => by cases h⟩, ⟨1, fun _ => rfl, fun t h => by cases h⟩,
    ⟨1, fun _ => rfl, fun t h => by cases h⟩, ⟨-1, ⟨fun _ => rfl, fun t h => by cases h⟩, by decide⟩,
    ⟨-1, ⟨fun _ => rfl, fun t h => by cases h⟩, by decide⟩⟩

theorem not_raster2 : ¬IsRaster md2 := fun h => absurd (h "Custom".toList rfl) (by decide)

/-- A scan of three points of a square. -/
example : ∃ s, reader env0 false (sampleFile false 4 1 (List.replicate 48 0)) none (some ⟨md2, some [(0, 1), (1, 1), (1, 0)]⟩) = .ok s ∧
    s.shape = [2, 2, 2, 3] ∧ s.data.positions = some [[1, 0], [1, 1], [0, 1]] := by
  obtain ⟨s, l, h1, -, -, -, h3, -, h4, -⟩ := C139_custom_partial (env := env0) (md := md2) (x := 2) (y := 2) (c := -1) (g := 1) (m := -1)
    (size := (1, 1)) (rows := [(0, 1), (1, 1), (1, 0)]) (w := 2)
    (t := .i2) (sample_holds false (nz := 4) (mode := 1) (by decide) (by decide) (List.replicate 48 0)) (by decide) rfl
    not_raster2 ⟨fun _ => rfl, fun t h => by cases h⟩ readable2
    ⟨(fun h => by cases h), fun _ => ⟨⟨fun _ => rfl, fun t h => by cases h⟩, ⟨fun _ => rfl, fun t h => by cases h⟩⟩⟩
    (by decide) (by decide) ⟨by decide, 1, by decide, rfl⟩ ⟨by decide, 1, by decide, rfl⟩ (by decide) (by decide)
    ⟨fun _ => rfl, fun t h => by cases h⟩ ⟨fun _ => rfl, fun t h => by cases h⟩ (by decide) (by decide) (by decide)
    (by rw [sample_length]; decide)
  exact ⟨s, h1, h3, h4⟩

/-- No list of positions. -/
example : reader env0 false [] none (some ⟨md2, none⟩) = .error .valueError := C139_rejects_positions rfl not_raster2

def md3 : Meta := [("Frames Per Second".toList, "2".toList)]

/-- A movie of two frames per second. -/
example : ∃ s a rest, reader env0 false (sampleFile false 4 1 (List.replicate 48 0)) none (some ⟨md3, none⟩) = .ok s ∧
    s.shape = [4, 2, 3] ∧ s.axes = .de (a :: rest) ∧ a.scale = .num (1 / 2) := by
  obtain ⟨s, l, h1, h2, -, h3, -, -, -, -, -, -, h4⟩ := C139_movie_partial (env := env0) (md := md3) (c := -1) (g := 1) (fps := 2) (csv := none)
    (w := 2) (t := .i2) (sample_holds false (nz := 4) (mode := 1) (by decide) (by decide) (List.replicate 48 0)) (by decide)
    (fun h => by cases h) ⟨-1, ⟨fun _ => rfl, fun t h => by cases h⟩, .inr ⟨rfl, fun h => by cases h⟩⟩
    ⟨fun _ => rfl, fun t h => by cases h⟩ ⟨(fun h => by cases h), fun t h => by injection h with h; subst h; rfl⟩ (by norm_num)
    ⟨fun _ => rfl, fun t h => by cases h⟩ ⟨fun _ => rfl, fun t h => by cases h⟩ (by decide) (by decide) (by decide) (by decide)
    (by rw [sample_length]; decide)
  obtain ⟨a, rest, q, e, ha, hq⟩ := h4 (by decide) (by norm_num)
  exact ⟨s, a, rest, h1, h3, by rw [h2, e], by rw [ha]; congr 1; linarith⟩

/-- Positions that are visited twice are numbered. -/
example : positionsOf [(0, 1), (2, 1), (0, 1)] = .ok ⟨[[1, 0, 0], [1, 2, 0], [1, 0, 1]], [2, 2, 3]⟩ := rfl

example : metaOf "Scan - Size X = 2\nnote\n".toList = [("Scan - Size X".toList, "2".toList)] := by decide +kernel

/-- A value that contains `=` is left out. -/
theorem C139_fails_equals : metaOf "Comment = a=1\nScan - Size X = 2\n".toList = [("Scan - Size X".toList, "2".toList)] := by decide +kernel

/-- A list of a single position is an error. -/
theorem C139_fails_one_position : positionsOf [(3, 4)] = .error .indexError := rfl

/-- When positions are visited again the data has the dimensions y, x, visit, but the axes are called time, y and x. -/
theorem C139_fails_repeats : ∃ s l, reader env0 false (sampleFile false 4 1 (List.replicate 48 0)) none
      (some ⟨md2, some [(0, 0), (1, 0), (2, 1), (0, 0)]⟩) = .ok s ∧ s.shape = [2, 3, 2, 2, 3] ∧
    s.data.positions = some [[0, 0, 0], [0, 1, 0], [1, 2, 0], [0, 0, 1]] ∧
    s.axes = .de l ∧ l.map (fun a => (a.name, a.size)) =
      [("time".toList, 2), ("y".toList, 3), ("x".toList, 2), ("ky".toList, 2), ("kx".toList, 3)] :=
  ⟨_, _, reader_side (f := sampleHeader 4 1) (t := .i2) (w := 2) (nav := none) (n := some [2, 3, 2])
    (r := ⟨_, some [2, 3, 2], some [[0, 0, 0], [0, 1, 0], [1, 2, 0], [0, 0, 1]], _⟩) (full := [2, 3, 2, 2, 3]) rfl rfl
    (sample_holds false (by decide) (by decide) _) (by decide) rfl (by rw [sample_length]; decide), rfl, rfl, rfl, rfl⟩

/-- With the navigation shape (2, 1) of a line of two points the axis x is missing, and the sizes are given to the wrong axes. -/
theorem C139_fails_line : ∃ s l, reader env0 false (sampleFile false 2 1 (List.replicate 24 0)) (some [2, 1]) (some ⟨md1, none⟩) = .ok s ∧
    s.shape = [2, 2, 3] ∧ s.axes = .de l ∧ l.map (fun a => (a.name, a.size)) = [("y".toList, 1), ("ky".toList, 2), ("kx".toList, 2)] :=
  ⟨_, _, reader_side (f := sampleHeader 2 1) (t := .i2) (w := 2) (nav := some [2, 1]) (n := some [2, 1])
    (r := ⟨_, _, none, _⟩) (full := [1, 2, 2, 3]) rfl rfl
    (sample_holds false (by decide) (by decide) _) (by decide) rfl (by rw [sample_length]; decide), rfl, rfl, rfl⟩

/-- When two frames of the camera are summed into one, which takes a second at two frames per second, the time between the saved frames
is a quarter of a second. -/
theorem C139_fails_sum : ∃ a l n, movieAxes env0 [("Frames Per Second".toList, "2".toList), ("Autosave Movie Sum Count".toList, "2".toList)] false =
    .ok (a :: l, n) ∧ a.name = "time".toList ∧ a.scale = .num (1 / 4) := by
  refine ⟨⟨"time".toList, -1, "sec".toList, .num (1 / (2 * 2)), true, 0⟩, [⟨"y".toList, -1, "nm".toList, .num 1, false, 1⟩,
    ⟨"x".toList, -1, "nm".toList, .num 1, false, 2⟩], none, ?_, rfl, by norm_num⟩
  unfold movieAxes
  rw [bindOk (a := (2 : Rat)) (by rfl), bindOk (a := (2 : Rat)) (by rfl), if_neg (by norm_num)]
  refine congrArg (fun l => Except.ok (l, none)) ?_
  decide +kernel

end Verif.Props.MrcFile
