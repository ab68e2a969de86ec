import Verif.Lemmas.Topspin
/-!
C89: frames of TopSpin scans are found at their positions.
C90: metadata and datasets of TopSpin files.
-/
namespace Verif.Props.Topspin
open Verif.Topspin Verif.Spec.Topspin
open Verif.Xml (El)

variable {nx ny : Nat} {x0 y0 dx dy : Rat}

/-- The shape of the data: navigation axes of length one are left out. -/
def shapeOf (g : Group) (nx ny : Nat) : List Nat := [ny, nx].filter (· ≠ 1) ++ [g.ky, g.kx]

/-- The index of a pixel. -/
def indexOf (nx ny j i r c : Nat) : List Nat := squeezeIdx [ny, nx] [j, i] ++ [r, c]

theorem flat_squeeze {g : Group} {j i r c : Nat} (hj : j < ny) (hi : i < nx) (hr : r < g.ky) (hc : c < g.kx) :
    flatIndex (shapeOf g nx ny) (indexOf nx ny j i r c) = (j * nx + i) * (g.ky * g.kx) + (r * g.kx + c) := by
  have hb : InBounds [ny, nx] [j, i] := .cons hj (.cons hi .nil)
  have hs : ∀ {a b : List Nat}, InBounds a b → InBounds (a.filter (· ≠ 1)) (squeezeIdx a b) := by
    intro a b hab
    induction hab with
    | nil => exact .nil
    | cons h t ih =>
      rename_i n i ns is
      rw [List.filter_cons, squeezeIdx]
      by_cases h1 : n = 1
      · rw [if_neg (by simpa using h1), if_pos h1]
        exact ih
      · rw [if_pos (by simpa using h1), if_neg h1]
        exact .cons h ih
  unfold shapeOf indexOf
  rw [Empad.flatIndex_append (hs hb) (.cons hr (.cons hc .nil)), flatIndex_squeeze hb]
  simp [flatIndex, size]

/-- What is read from a scan. -/
theorem read_raster {g : Group} (h : Raster g.frames nx ny x0 y0 dx dy) : ∃ sy sx data, read4D g = .ok
      (dropY (dropX [⟨"y", "nm".toList, ny, sy.map toNm, y0 * 10 ^ 9, true, 0⟩, ⟨"x", "nm".toList, nx, sx.map toNm, x0 * 10 ^ 9, true, 1⟩,
        ⟨"ky", g.calY.units, g.ky, some g.calY.scale, g.calY.offset, false, 2⟩, ⟨"kx", g.calX.units, g.kx, some g.calX.scale, g.calX.offset, false, 3⟩]), shapeOf g nx ny, data) ∧
      (2 ≤ nx → sx = some dx) ∧ (2 ≤ ny → sy = some dy) ∧
      ∀ j i f r c, j < ny → i < nx → g.frames[j * nx + i]? = some f → r < g.ky → c < g.kx → data[flatIndex (shapeOf g nx ny) (indexOf nx ny j i r c)]? = some (f.img [r, c]) := by
  obtain ⟨sy, sx, hs, h1, h2⟩ := scanAxes_raster h
  obtain ⟨d1, d2⟩ := frames_data g.ky g.kx g.frames
  refine ⟨sy, sx, g.frames.flatMap fun f => ravel [g.ky, g.kx] f.img, ?_, h1, h2, fun j i f r c hj hi hf hr hc => ?_⟩
  · unfold read4D axes4D
    simp only [hs, bind, Except.bind]
    have hshape : (dropY (dropX [(⟨"y", "nm".toList, ny, sy.map toNm, y0 * 10 ^ 9, true, 0⟩ : Axis), ⟨"x", "nm".toList, nx, sx.map toNm, x0 * 10 ^ 9, true, 1⟩,
        ⟨"ky", g.calY.units, g.ky, some g.calY.scale, g.calY.offset, false, 2⟩, ⟨"kx", g.calX.units, g.kx, some g.calX.scale, g.calX.offset, false, 3⟩])).map Axis.size = shapeOf g nx ny := by
      unfold shapeOf
      by_cases hx : nx = 1 <;> by_cases hy : ny = 1 <;> simp [dropX, dropY, hx, hy]
    rw [hshape, if_pos]
    rw [d1, h.length]
    unfold shapeOf
    have : ∀ A B : List Nat, size (A ++ B) = size A * size B := by
      intro A B
      induction A with
      | nil => simp [size]
      | cons n A ih => simp [size, ih, Nat.mul_assoc]
    rw [this, size_squeeze]
    simp only [size]
    ring
  · rw [flat_squeeze hj hi hr hc]
    exact d2 _ _ _ _ hf hr hc

/-- **C89.** A scan row by row in equal steps, of any size (`nx` columns, `ny` rows): each pixel of each frame is found at the row and the column of the frame. Axes of length one are left out. -/
theorem C89_places {g : Group} (h : Raster g.frames nx ny x0 y0 dx dy) : ∃ ax data, read4D g = .ok (ax, shapeOf g nx ny, data) ∧
    ax.map Axis.size = shapeOf g nx ny ∧ ax.map Axis.name = (if ny = 1 then [] else ["y"]) ++ (if nx = 1 then [] else ["x"]) ++ ["ky", "kx"] ∧
    ∀ j i f r c, j < ny → i < nx → g.frames[j * nx + i]? = some f → r < g.ky → c < g.kx → data[flatIndex (shapeOf g nx ny) (indexOf nx ny j i r c)]? = some (f.img [r, c]) := by
  obtain ⟨sy, sx, data, hr, _, _, hd⟩ := read_raster h
  refine ⟨_, data, hr, ?_, ?_, hd⟩
  · unfold shapeOf
    by_cases hx : nx = 1 <;> by_cases hy : ny = 1 <;> simp [dropX, dropY, hx, hy]
  · by_cases hx : nx = 1 <;> by_cases hy : ny = 1 <;> simp [dropX, dropY, hx, hy]

/-- **C89.** The axes of a scan: steps (rounded to picometres) and starts in nanometres, and the calibration of the patterns. -/
theorem C89_axes {g : Group} (h : Raster g.frames nx ny x0 y0 dx dy) {ax : List Axis} {shape data : List Nat} (hr : read4D g = .ok (ax, shape, data)) (a : Axis) (ha : a ∈ ax) :
    (a.name = "y" → a.units = "nm".toList ∧ a.offset = y0 * 10 ^ 9 ∧ Nm dy a.scale ∧ a.navigate = true) ∧
    (a.name = "x" → a.units = "nm".toList ∧ a.offset = x0 * 10 ^ 9 ∧ Nm dx a.scale ∧ a.navigate = true) ∧
    (a.name = "ky" → a.units = g.calY.units ∧ a.offset = g.calY.offset ∧ a.scale = some g.calY.scale ∧ a.navigate = false) ∧
    (a.name = "kx" → a.units = g.calX.units ∧ a.offset = g.calX.offset ∧ a.scale = some g.calX.scale ∧ a.navigate = false) := by
  obtain ⟨sy, sx, data', hr', h1, h2, _⟩ := read_raster h
  rw [hr'] at hr
  simp only [Except.ok.injEq, Prod.mk.injEq] at hr
  obtain ⟨rfl, _, _⟩ := hr
  have hpx := h.px
  have hpy := h.py
  by_cases hx : nx = 1
  · by_cases hy : ny = 1
    · simp only [dropX, dropY, hx, hy, if_true, List.map_nil, List.mem_cons, List.not_mem_nil, or_false] at ha
      rcases ha with rfl | rfl <;> simp
    · have hsy := h2 (by omega)
      subst hsy
      simp only [dropX, dropY, hx, hy, if_true, if_false, List.mem_cons, List.not_mem_nil, or_false] at ha
      rcases ha with rfl | rfl | rfl <;> simp [toNm_spec]
  · have hsx := h1 (by omega)
    subst hsx
    by_cases hy : ny = 1
    · simp only [dropX, dropY, hx, hy, if_true, if_false, List.map_cons, List.map_nil, List.mem_cons, List.not_mem_nil, or_false] at ha
      rcases ha with rfl | rfl | rfl <;> simp [toNm_spec]
    · have hsy := h2 (by omega)
      subst hsy
      simp only [dropX, dropY, hx, hy, if_false, List.mem_cons, List.not_mem_nil, or_false] at ha
      rcases ha with rfl | rfl | rfl | rfl <;> simp [toNm_spec]

/-- **C89, partial.** The axes are numbered like the dimensions of the data. Missing: scans of one column (`C89_fails_column`). -/
theorem C89_index_partial {g : Group} (h : Raster g.frames nx ny x0 y0 dx dy) (h1 : 2 ≤ nx ∨ ny = 1) {ax : List Axis} {shape data : List Nat} (hr : read4D g = .ok (ax, shape, data)) :
    ax.map Axis.index = List.range shape.length := by
  obtain ⟨sy, sx, data', hr', _, _, _⟩ := read_raster h
  rw [hr'] at hr
  simp only [Except.ok.injEq, Prod.mk.injEq] at hr
  obtain ⟨rfl, rfl, _⟩ := hr
  unfold shapeOf
  by_cases hx : nx = 1 <;> by_cases hy : ny = 1
  · simp [dropX, dropY, hx, hy]; decide
  · exfalso; omega
  · simp [dropX, dropY, hx, hy]; decide
  · simp [dropX, dropY, hx, hy]; decide

/-- Frames at some positions, with their number as pixels. -/
def framesAt (l : List (Rat × Rat)) : List Frame := (l.zip (List.range l.length)).map fun e => ⟨e.1.1, e.1.2, fun _ => e.2⟩

/-- A group of frames of `3 × 5` pixels. -/
def groupAt (l : List (Rat × Rat)) : Group := ⟨3, 5, ⟨[], 1, 0⟩, ⟨[], 1, 0⟩, framesAt l⟩

/-- Name, size, step, start and number of the axes, and the first pixels of the frames. -/
def said (r : Py (List Axis × List Nat × List Nat)) : List (String × Nat × Option Rat × Rat × Nat) × List Nat := match r with
  | .ok (ax, _, data) => (ax.map fun a => (a.name, a.size, a.scale, a.offset, a.index), (List.range (data.length / 15)).map fun k => data.getD (15 * k) 0)
  | .error _ => ([], [])

theorem raster12 : Raster (framesAt [(0, 0), (0, 1)]) 1 2 0 0 1 1 := by
  refine ⟨by decide, by decide, by decide, by decide, by decide, ?_⟩
  intro j i hj hi
  have hi0 : i = 0 := by omega
  subst hi0
  rcases (by omega : j = 0 ∨ j = 1) with rfl | rfl
  · exact ⟨_, rfl, by norm_num, by norm_num⟩
  · exact ⟨_, rfl, by norm_num, by norm_num⟩

/-- For a scan of one column the numbers of the dimensions of the pattern are exchanged: `ky`, with 3 values, is said to be the last dimension, which has 5 values. -/
theorem C89_fails_column : Raster (groupAt [(0, 0), (0, 1)]).frames 1 2 0 0 1 1 ∧
    (said (read4D (groupAt [(0, 0), (0, 1)]))).1 = [("y", 2, some (10 ^ 9), 0, 0), ("ky", 3, some 1, 0, 2), ("kx", 5, some 1, 0, 1)] := ⟨raster12, by decide +kernel⟩

/-- Rows that are scanned upwards (`y` at 2, 1 and 0 metres): the step between rows is the extent of the whole scan, and the first row of the image is said to be at the lower end. -/
theorem C89_fails_upwards : (said (read4D (groupAt [(0, 2), (1, 2), (0, 1), (1, 1), (0, 0), (1, 0)]))).1 =
    [("y", 3, some (2 * 10 ^ 9), 0, 0), ("x", 2, some (10 ^ 9), 0, 1), ("ky", 3, some 1, 0, 2), ("kx", 5, some 1, 0, 3)] := by decide +kernel

/-- A scan column by column of 2 × 2 positions is taken for one column of four frames. -/
theorem C89_fails_columns : (said (read4D (groupAt [(0, 0), (0, 1), (1, 0), (1, 1)]))).1 =
    [("y", 4, some (10 ^ 9), 0, 0), ("ky", 3, some 1, 0, 2), ("kx", 5, some 1, 0, 1)] := by decide +kernel

/-- A scan whose rows alternate in direction: the axes are right, but the frame taken at (1, 1) is found at column 0 of row 1. -/
theorem C89_fails_snake : said (read4D (groupAt [(0, 0), (1, 0), (1, 1), (0, 1)])) =
    ([("y", 2, some (10 ^ 9), 0, 0), ("x", 2, some (10 ^ 9), 0, 1), ("ky", 3, some 1, 0, 2), ("kx", 5, some 1, 0, 3)], [0, 1, 2, 3]) := by decide +kernel

/-- **C89, partial.** Images with the same calibration in both directions. Missing: other images (`C89_fails_image`). -/
theorem C89_image_partial (c : Calibration) (hs : c.xScale = c.yScale) (ho : c.xOffset = c.yOffset) (h w : Nat) (a : Axis) (ha : a ∈ axes2D (some c) h w) :
    (a.name = "y" → a.size = h ∧ a.scale = some (c.yScale * 10 ^ 9) ∧ a.offset = c.yOffset * 10 ^ 9 ∧ a.index = 0 ∧ a.navigate = false) ∧
    (a.name = "x" → a.size = w ∧ a.scale = some (c.xScale * 10 ^ 9) ∧ a.offset = c.xOffset * 10 ^ 9 ∧ a.index = 1 ∧ a.navigate = false) ∧ (a.name = "y" ∨ a.name = "x") := by
  simp only [axes2D, List.mem_cons, List.not_mem_nil, or_false] at ha
  rcases ha with rfl | rfl <;> simp [hs, ho]

/-- The calibration of an image in `X` is given to the axis `y`. -/
theorem C89_fails_image : (axes2D (some ⟨1, 0, 2, 0⟩) 3 5).map (fun a => (a.name, a.scale)) = [("y", some (10 ^ 9)), ("x", some (2 * 10 ^ 9))] := by decide +kernel

example : Raster (framesAt [(0, 0), (0, 1)]) 1 2 0 0 1 1 := raster12
example : Raster (framesAt [(5, 1), (7, 1), (9, 1), (5, 4), (7, 4), (9, 4)]) 3 2 5 1 2 3 := by
  refine ⟨by decide, by decide, by decide, by decide +kernel, by decide +kernel, ?_⟩
  intro j i hj hi
  rcases (by omega : j = 0 ∨ j = 1) with rfl | rfl <;> rcases (by omega : i = 0 ∨ i = 1 ∨ i = 2) with rfl | rfl | rfl <;> exact ⟨_, rfl, by norm_num [framesAt], by norm_num [framesAt]⟩

/-! ### Metadata -/

variable {lib : Lib}

theorem scalar_nameVal {e : El} {v : Val} (h : Scalar lib e v) : nameVal lib e = .ok [(e.tag, v)] := by
  obtain ⟨tag, attrs, text, tail, ch⟩ := e
  unfold nameVal
  cases h with
  | double h1 h2 h3 =>
    simp only [El.attrs, El.text] at h1 h2
    rw [h1, h2]
    simp only [floatOf, h3]
    rfl
  | string h1 h2 =>
    simp only [El.attrs, El.text] at h1 h2
    rw [h1, h2]
    rfl
  | int h1 h2 h3 =>
    simp only [El.attrs, El.text] at h1 h2
    rw [h1, h2]
    simp only [intOf, h3]
    rfl
  | uint h1 h2 h3 =>
    simp only [El.attrs, El.text] at h1 h2
    rw [h1, h2]
    simp only [intOf, h3]
    rfl

theorem scalar_attrs {e : El} {v : Val} (h : Scalar lib e v) : e.attrs ≠ [] := by
  intro hn
  cases h with
  | double h1 => rw [hn] at h1; simp [getKw] at h1
  | string h1 => rw [hn] at h1; simp [getKw] at h1
  | int h1 => rw [hn] at h1; simp [getKw] at h1
  | uint h1 => rw [hn] at h1; simp [getKw] at h1

theorem leaves_scalars : ∀ {es : List El} {vs : List Val} (out : List (Text × Val)), List.Forall₂ (Scalar lib) es vs → (out.map Prod.fst ++ es.map El.tag).Nodup →
    leaves lib out es = .ok (out ++ (es.map El.tag).zip vs)
  | _, _, out, .nil, _ => by simp [leaves]
  | e :: es, v :: vs, out, .cons h t, hn => by
    unfold leaves
    rw [if_neg (scalar_attrs h), scalar_nameVal h]
    dsimp only
    have hnew : e.tag ∉ out.map Prod.fst := by
      intro hm
      rw [List.map_cons] at hn
      exact (List.nodup_append.1 hn).2.2 _ hm _ (List.mem_cons_self ..) rfl
    rw [update, update, setKw_new hnew, leaves_scalars _ t]
    · simp
    · simpa using hn

theorem means_item {n v : El} {e : El} {k : Text} {w : Val} (he : e.children = [n, v]) (hk : n.text = some k) (h : Means lib v w) : item lib e = .ok (k, w) := by
  have hkey : key n = k := by simp [key, hk]
  unfold item
  rw [he]
  dsimp only
  rw [hkey]
  cases h with
  | scalar h =>
    cases h with
    | double h1 h2 h3 => rw [h1, h2]; simp only [floatOf, h3]; rfl
    | string h1 h2 => rw [h1, h2]; rfl
    | int h1 h2 h3 => rw [h1, h2]; simp only [intOf, h3]; rfl
    | uint h1 h2 h3 => rw [h1, h2]; simp only [intOf, h3]; rfl
  | record h1 h2 h3 h4 =>
    rename_i s vs
    obtain ⟨tag, attrs, text, tail, ch⟩ := v
    simp only [El.attrs, El.children] at h1 h3 h4 ⊢
    simp only [List.mem_cons, List.not_mem_nil, or_false, not_or] at h2
    obtain ⟨n1, n2, n3, n4, n5⟩ := h2
    rw [h1]
    dsimp only
    rw [if_neg n1, if_neg n2, if_neg n3, if_neg (by rintro (h | h); exact n4 h; exact n5 h)]
    unfold nameVal
    rw [h1]
    dsimp only
    rw [if_neg n1, if_neg n2, if_neg n3, if_neg (by rintro (h | h); exact n4 h; exact n5 h), leaves_scalars [] h3 (by simpa using h4)]
    rfl

theorem items_means : ∀ {es : List El} {d : List (Text × Val)} (out : List (Text × Val)), List.Forall₂ (Item lib) es d → (out.map Prod.fst ++ d.map Prod.fst).Nodup → items lib out es = .ok (out ++ d)
  | _, _, out, .nil, _ => by simp [items]
  | e :: es, (k, w) :: d, out, .cons ⟨n, v, h1, h2, h3⟩ t, hn => by
    unfold items
    rw [means_item h1 h2 h3]
    dsimp only
    have hnew : k ∉ out.map Prod.fst := by
      intro hm
      rw [List.map_cons] at hn
      exact (List.nodup_append.1 hn).2.2 _ hm _ (List.mem_cons_self ..) rfl
    rw [setKw_new hnew, items_means _ t (by simpa using hn)]
    simp

theorem parse_from : ∀ {es : List El} {bs : List Branch} (out : List (Text × Branch)), List.Forall₂ (Entry lib) es bs → (out.map Prod.fst ++ es.map El.tag).Nodup →
    parseXml lib out es = .ok (out ++ (es.map El.tag).zip bs)
  | _, _, out, .nil, _ => by simp [parseXml]
  | e :: es, b :: bs, out, .cons h t, hn => by
    have hnew : e.tag ∉ out.map Prod.fst := by
      intro hm
      rw [List.map_cons] at hn
      exact (List.nodup_append.1 hn).2.2 _ hm _ (List.mem_cons_self ..) rfl
    unfold parseXml
    cases h with
    | items h1 h2 h3 =>
      simp only [List.mem_cons, List.not_mem_nil, or_false] at h1
      rw [if_pos h1, items_means [] h2 (by simpa using h3)]
      dsimp only
      rw [setKw_new hnew, parse_from _ t (by simpa using hn)]
      simp
    | text h1 =>
      simp only [List.mem_cons, List.not_mem_nil, or_false] at h1
      rw [if_neg h1, setKw_new hnew, parse_from _ t (by simpa using hn)]
      simp

/-- **C90, partial.** The metadata of a file: each entry by its name, and the items of procedure and hardware with their names and typed values, also records of values. Missing: Boolean values, records in
records, and empty texts (`C90_fails_boolean`, `C90_fails_nested`, `C90_fails_empty`). -/
theorem C90_metadata_partial {es : List El} {bs : List Branch} (h : List.Forall₂ (Entry lib) es bs) (hn : (es.map El.tag).Nodup) : parseXml lib [] es = .ok ((es.map El.tag).zip bs) := by
  have := parse_from [] h (by simpa using hn)
  simpa using this

/-- **C90, partial.** Date and time of `month/day/year time`. Missing: times of the afternoon (`C90_fails_afternoon`) and numbers of one digit, which stay as they are. -/
theorem C90_date_partial {a b c t : Text} (hs : ∀ p ∈ [a, b, c, t], ' ' ∉ p) (hl : ∀ p ∈ [a, b, c], '/' ∉ p) : dateTime (a ++ '/' :: (b ++ '/' :: c) ++ ' ' :: t) = .ok (c ++ '-' :: a ++ '-' :: b, t) := by
  simp only [List.mem_cons, List.not_mem_nil, or_false, forall_eq_or_imp, forall_eq] at hs hl
  unfold dateTime
  rw [splitChar_append (by simp [hs]), splitChar_none hs.2.2.2]
  dsimp only
  rw [splitChar_append hl.1, splitChar_append hl.2.1, splitChar_none hl.2.2]

/-- **C90.** Title, description and date come from the entries of the same file. -/
theorem C90_meta {m : List (Text × Branch)} {r : Meta} (h : hspyMeta m = .ok r) :
    (∃ b, getKw "Id".toList m = some b ∧ ∀ t, b = .text t → r.title = t) ∧
    (getKw "CreatedDateTime".toList m = none → r.date = none) ∧
    (∀ t, getKw "CreatedDateTime".toList m = some (.text (some t)) → ∃ dt, dateTime t = .ok dt ∧ r.date = some dt) ∧
    (getKw "Specimen".toList m = none → r.description = none) ∧
    ∀ t, getKw "Specimen".toList m = some (.text t) → r.description = some t := by
  unfold hspyMeta at h
  cases hi : getKw "Id".toList m with
  | none => rw [hi] at h; exact absurd h (by simp)
  | some i =>
    rw [hi] at h
    dsimp only at h
    cases hd : dateOf m with
    | error x => rw [hd] at h; exact absurd h (by simp)
    | ok d =>
      rw [hd] at h
      simp only [Except.ok.injEq] at h
      subst h
      refine ⟨⟨i, rfl, fun t ht => by rw [ht]; rfl⟩, ?_, ?_, ?_, ?_⟩
      · intro hn
        unfold dateOf at hd
        rw [hn] at hd
        simp only [Except.ok.injEq] at hd
        exact hd.symm
      · intro t ht
        unfold dateOf at hd
        rw [ht] at hd
        simp only [textOf] at hd
        cases hdt : dateTime t with
        | error x => rw [hdt] at hd; exact absurd hd (by simp [Except.map])
        | ok dt =>
          rw [hdt] at hd
          simp only [Except.map, Except.ok.injEq] at hd
          exact ⟨dt, rfl, hd.symm⟩
      · intro hn
        dsimp only
        rw [hn]
        rfl
      · intro t ht
        dsimp only
        rw [ht]
        rfl

theorem split_join {c : Char} : ∀ {s : Text} {l : List Text}, splitChar c s = l → (∀ p ∈ l, c ∉ p) ∧ s = (l.intersperse [c]).flatten
  | [], l, h => by subst h; simp [splitChar]
  | a :: s, l, h => by
    obtain ⟨ih1, ih2⟩ := split_join (c := c) (s := s) rfl
    unfold splitChar at h
    split at h
    · next ha =>
      subst h ha
      refine ⟨?_, ?_⟩
      · intro p hp
        rcases List.mem_cons.1 hp with rfl | hp
        · simp
        · exact ih1 p hp
      · cases hs : splitChar a s with
        | nil => exact absurd hs (splitChar_ne_nil a s)
        | cons q qs => rw [hs] at ih2; simp [← ih2]
    · next ha =>
      cases hs : splitChar c s with
      | nil => exact absurd hs (splitChar_ne_nil c s)
      | cons q qs =>
        rw [hs] at h ih1 ih2
        dsimp only at h
        subst h
        refine ⟨?_, ?_⟩
        · intro p hp
          rcases List.mem_cons.1 hp with rfl | hp
          · have := ih1 q (List.mem_cons_self ..)
            simp [this, Ne.symm ha]
          · exact ih1 p (List.mem_cons_of_mem _ hp)
        · cases qs with
          | nil => simpa using ih2
          | cons q' qs => rw [ih2]; simp

theorem guid_iff (n : Text) : guid n = true ↔ Guid n := by
  unfold guid
  rw [decide_eq_true_iff]
  constructor
  · intro h
    obtain ⟨h1, h2⟩ := split_join (c := '-') (s := n) rfl
    generalize splitChar '-' n = l at h h1 h2
    match l, h, h1, h2 with
    | [a, b, c, d, e], h, h1, h2 =>
      simp only [List.map_cons, List.map_nil, List.cons.injEq, and_true] at h
      exact ⟨a, b, c, d, e, h.1, h.2.1, h.2.2.1, h.2.2.2.1, h.2.2.2.2, h1, by rw [h2]; simp⟩
    | [], h, _, _ => simp at h
    | [_], h, _, _ => simp at h
    | [_, _], h, _, _ => simp at h
    | [_, _, _], h, _, _ => simp at h
    | [_, _, _, _], h, _, _ => simp at h
    | _ :: _ :: _ :: _ :: _ :: _ :: _, h, _, _ => simp at h
  · rintro ⟨a, b, c, d, e, ha, hb, hc, hd, he, hp, rfl⟩
    simp only [List.mem_cons, List.not_mem_nil, or_false, forall_eq_or_imp, forall_eq] at hp
    rw [splitChar_append hp.1, splitChar_append hp.2.1, splitChar_append hp.2.2.1, splitChar_append hp.2.2.2.1, splitChar_none hp.2.2.2.2]
    simp [ha, hb, hc, hd, he]

/-- **C90.** The datasets of a file of one experiment, and of a file of several: exactly those whose names are identifiers, each with the metadata of its own experiment. A path selects the dataset with
this address. -/
theorem C90_datasets (f : Tree) (path : Option Text) (address loc : Text) : (address, loc) ∈ tasksOf f path ↔ (∀ p, path = some p → address = p) ∧
    ((∃ g ∈ f, g.1 = "Metadata".toList) ∧ (∃ g ∈ f, g.1 = address ∧ Guid g.1) ∧ loc = "Metadata".toList ∨
    (∀ g ∈ f, g.1 ≠ "Metadata".toList) ∧ ∃ g ∈ f, Guid g.1 ∧ ∃ n ∈ g.2, Guid n ∧ address = g.1 ++ '/' :: n ∧ loc = g.1 ++ "/Metadata".toList) := by
  have h : (address, loc) ∈ tasks f ↔ ((∃ g ∈ f, g.1 = "Metadata".toList) ∧ (∃ g ∈ f, g.1 = address ∧ Guid g.1) ∧ loc = "Metadata".toList ∨
      (∀ g ∈ f, g.1 ≠ "Metadata".toList) ∧ ∃ g ∈ f, Guid g.1 ∧ ∃ n ∈ g.2, Guid n ∧ address = g.1 ++ '/' :: n ∧ loc = g.1 ++ "/Metadata".toList) := by
    unfold tasks
    by_cases hm : "Metadata".toList ∈ f.map Prod.fst
    · rw [if_pos hm]
      have hm' : ∃ g ∈ f, g.1 = "Metadata".toList := List.mem_map.1 hm
      have hno : ¬ ∀ g ∈ f, g.1 ≠ "Metadata".toList := fun h => by obtain ⟨g, hg, e⟩ := hm'; exact h g hg e
      simp only [hm', hno, true_and, false_and, or_false, List.mem_map, List.mem_filter, guid_iff, Prod.mk.injEq]
      constructor
      · rintro ⟨g, ⟨hg, hgu⟩, rfl, rfl⟩
        exact ⟨⟨g, hg, rfl, hgu⟩, rfl⟩
      · rintro ⟨⟨g, hg, rfl, hgu⟩, rfl⟩
        exact ⟨g, ⟨hg, hgu⟩, rfl, rfl⟩
    · rw [if_neg hm]
      have hm' : ¬ ∃ g ∈ f, g.1 = "Metadata".toList := fun h => hm (List.mem_map.2 h)
      have hno : ∀ g ∈ f, g.1 ≠ "Metadata".toList := fun g hg e => hm' ⟨g, hg, e⟩
      rw [List.mem_flatMap]
      constructor
      · rintro ⟨g, hg, hx⟩
        right
        refine ⟨hno, g, hg, ?_⟩
        split at hx
        · next hgu =>
          rw [List.mem_map] at hx
          obtain ⟨n, hn, e⟩ := hx
          rw [List.mem_filter] at hn
          simp only [Prod.mk.injEq] at e
          exact ⟨(guid_iff _).1 hgu, n, hn.1, (guid_iff _).1 hn.2, e.1.symm, e.2.symm⟩
        · simp at hx
      · rintro (⟨h, _⟩ | ⟨_, g, hg, hgu, n, hn, hgn, rfl, rfl⟩)
        · exact absurd h hm'
        · refine ⟨g, hg, ?_⟩
          rw [if_pos ((guid_iff _).2 hgu), List.mem_map]
          exact ⟨n, List.mem_filter.2 ⟨hn, (guid_iff _).2 hgn⟩, rfl⟩
  cases path with
  | none => simpa [tasksOf] using h
  | some p =>
    unfold tasksOf
    rw [List.mem_filter, h]
    simp only [decide_eq_true_eq, Option.some.injEq, forall_eq']
    exact and_comm

/-- Only digits, as integers. -/
def someLib : Lib := ⟨fun t => .ok (decVal t), fun t => .ok (decVal t)⟩

/-- An element. -/
def el (tag : String) (serializer : String) (text : String) (children : List El) : El :=
  .mk tag.toList [("Serializer".toList, serializer.toList)] (if text = "" then none else some text.toList) none children

/-- In a record, the Boolean value `False` becomes true; for an item, Boolean values stay texts. -/
theorem C90_fails_boolean : nameVal someLib (el "Flag" "Boolean" "False" []) = .ok [("Flag".toList, .bool true)] ∧
    item someLib (.mk "Item".toList [] none none [el "Name" "String" "Flag" [], el "Value" "Boolean" "False" []]) = .ok ("Flag".toList, .str "False".toList) := ⟨rfl, rfl⟩

/-- A record in a record is not a nested dictionary: its entries are those of the outer one, and entries of the same name are lost (here the offset of `X`). -/
theorem C90_fails_nested : nameVal someLib (el "Value" "Calibration" "" [el "X" "Axis" "" [el "Offset" "Double" "1" []], el "Y" "Axis" "" [el "Offset" "Double" "2" []]]) =
    .ok [("Offset".toList, .num 2)] := by
  have h : decVal ['2'] = 2 := rfl
  simp [nameVal, leaves, el, getKw, El.attrs, floatOf, someLib, Except.map, update, setKw, h]

/-- An empty text becomes the text `None`. -/
theorem C90_fails_empty : item someLib (.mk "Item".toList [] none none [el "Name" "String" "Comment" [], el "Value" "String" "" []]) = .ok ("Comment".toList, .str "None".toList) := rfl

/-- Three in the afternoon and three in the night are the same time, and the date is not an ISO date. -/
theorem C90_fails_afternoon : dateTime "3/7/2023 3:04:05 PM".toList = .ok ("2023-3-7".toList, "3:04:05".toList) ∧
    dateTime "3/7/2023 3:04:05 AM".toList = .ok ("2023-3-7".toList, "3:04:05".toList) := ⟨rfl, rfl⟩

example : Guid "18d9446f-22bf-4fb1-8d13-338174e75d20".toList := (guid_iff _).1 (by decide +kernel)
example : Entry someLib (.mk "HardwareSettings".toList [] none none [.mk "Item".toList [] none none [el "Name" "String" "Scan" [], el "Value" "Double" "5" []],
    .mk "Item".toList [] none none [el "Name" "String" "Size" [], el "Value" "Point" "" [el "X" "Int32" "3" [], el "Y" "Int32" "4" []]]])
    (.dict [("Scan".toList, .num 5), ("Size".toList, .dict [("X".toList, .int 3), ("Y".toList, .int 4)])]) := by
  refine .items (by decide) (.cons ⟨_, _, rfl, rfl, .scalar (.double rfl rfl rfl)⟩ (.cons ⟨_, _, rfl, rfl, ?_⟩ .nil)) (by decide)
  exact .record (vs := [.int 3, .int 4]) rfl (by decide) (.cons (.int rfl rfl rfl) (.cons (.int rfl rfl rfl) .nil)) (by decide)
example : dateTime "06/09/2023 16:12:21".toList = .ok ("2023-06-09".toList, "16:12:21".toList) := rfl

end Verif.Props.Topspin
