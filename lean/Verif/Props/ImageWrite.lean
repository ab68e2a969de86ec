import Verif.Model.ImageWrite
import Mathlib.Tactic.Ring
import Mathlib.Tactic.NormNum
import Mathlib.Tactic.FieldSimp
import Mathlib.Tactic.Linarith
/-!
C145: images are written as they are or as figures of the asked size. C146: scale bars have the
scale and the units of the image.
-/
namespace Verif.Props.ImageWrite
open Verif.ImageWrite Verif.Rgb

/-- The array with its colours as a further dimension. -/
def Channels : Array' → Array' → Prop
  | .reg a, b => b = .reg a
  | .rgb a, b => b = .reg ⟨if a.wide then .u2 else .u1, a.shape ++ [if a.alpha then 4 else 3],
      a.px.flatten⟩

/-- No scale bar (or none possible), no size and no options for showing. -/
def Bare (w : World) (o : Opts) : Prop :=
  (o.scalebar = false ∨ w.barLib = false) ∧
  (o.size = none ∨ o.size = some (.num 0) ∨ o.size = some (.seq [])) ∧
  (o.imshow = none ∨ o.imshow = some [])

/-- The signal is an image of `h` rows and `w` columns, greyscale or in colours. -/
def Image (s : Signal) (ay ax : Axis) : Prop :=
  s.axes = [ay, ax] ∧ ay.navigate = ax.navigate ∧ shapeOf s.data = [ay.size, ax.size]

/-- The factor of the heights: a number given as `aspect`, or 1. -/
def Aspect (imshow : Option Kwds) (r : ℚ) : Prop :=
  (getKw "aspect".toList (imshow.getD []) = none ∧ r = 1) ∨
    getKw "aspect".toList (imshow.getD []) = some (.num r)

/-- Width and height in pixels: those given; the width given, and the height in proportion; or those
of the image. -/
def Wanted (ay ax : Axis) (r : ℚ) (W H : ℚ) : Option Size → Prop
  | none => W = ax.size ∧ H = ay.size * r
  | some (.num q) => W = q ∧ H * ax.size = W * ay.size * r
  | some (.seq l) => l = [W, H]

private theorem channels (a : Array') : Channels a (regular a) := by
  cases a with
  | reg a => rfl
  | rgb a =>
    obtain ⟨w, al, sh, px⟩ := a
    cases al <;> cases w <;> rfl

private theorem channels_unique {a b c : Array'} (h : Channels a b) (k : Channels a c) : b = c := by
  cases a <;> exact h.trans k.symm

private theorem figure_iff (w : World) (o : Opts) :
    usesFigure (o.scalebar && w.barLib) o = false ↔ Bare w o := by
  have h1 : sizeTrue o.size = false ↔
      (o.size = none ∨ o.size = some (.num 0) ∨ o.size = some (.seq [])) := by
    rcases o.size with _ | q | l
    · simp [sizeTrue]
    · simp [sizeTrue]
    · simp [sizeTrue]
  have h2 : kwdsTrue o.imshow = false ↔ (o.imshow = none ∨ o.imshow = some []) := by
    rcases o.imshow with _ | l
    · simp [kwdsTrue]
    · simp [kwdsTrue]
  simp only [usesFigure, Bool.or_eq_false_iff, Bool.and_eq_false_iff, Bare, h1, h2]
  tauto

/-- C145, as it is. Without a scale bar, a size or options for showing, the array itself is written,
colours as a further dimension of three or four channels. -/
theorem C145_plain (w : World) (ext : Text) (s : Signal) (o : Opts) (h : Bare w o) :
    ∃ d k, write w ext s o = .ok (.plain d, k) ∧ Channels s.data d := by
  refine ⟨_, barDefaults o.barKwds, ?_, channels s.data⟩
  rw [write, (figure_iff w o).2 h]
  rfl

/-- A colour image. -/
example : ∃ k, write ⟨true, true, [], fun _ => .error .valueError⟩ ".jpg".toList
      ⟨.rgb ⟨false, false, [1, 2], [[1, 2, 3], [4, 5, 6]]⟩, []⟩ ⟨false, none, none, none⟩ =
    .ok (.plain (.reg ⟨.u1, [1, 2, 3], [1, 2, 3, 4, 5, 6]⟩), k) := ⟨_, rfl⟩

private theorem axes_of {s : Signal} {ay ax : Axis} (h : Image s ay ax) :
    axesOf s.axes = .ok (ay, ax) := by
  rw [axesOf, h.1]
  obtain ⟨n1, _, _, _⟩ := ay
  obtain ⟨n2, _, _, _⟩ := ax
  have e : n1 = n2 := h.2.1
  subst e
  cases n1 <;> rfl

private theorem getKw_setKw {α : Type} (k k' : Text) (v : α) (hk : k ≠ k') :
    ∀ d : List (Text × α), getKw k (setKw k' v d) = getKw k d
  | [] => by simp [setKw, getKw, hk.symm]
  | (a, b) :: d => by
    unfold setKw
    split
    · rename_i h
      rw [getKw, getKw, if_neg hk.symm, if_neg (h ▸ hk.symm)]
    · rw [getKw, getKw, getKw_setKw k k' v hk d]

private theorem getKw_setKw_same {α : Type} (k : Text) (v : α) :
    ∀ d : List (Text × α), getKw k (setKw k v d) = some v
  | [] => by simp [setKw, getKw]
  | (a, b) :: d => by
    unfold setKw
    split
    · simp [getKw]
    · rename_i h
      rw [getKw, if_neg h, getKw_setKw_same k v d]

private theorem getKw_default (k : Text) (k' : String) (v : Val) (d : Kwds) :
    getKw k (setDefault k' v d) =
      if k = k'.toList then some ((getKw k d).getD v) else getKw k d := by
  unfold setDefault
  by_cases e : k = k'.toList
  · subst e
    rw [if_pos rfl]
    cases g : getKw k'.toList d with
    | none => dsimp only; rw [getKw_setKw_same]; rfl
    | some x => dsimp only; rw [g]; rfl
  · rw [if_neg e]
    cases g : getKw k'.toList d with
    | none => dsimp only; rw [getKw_setKw _ _ _ e]
    | some x => rfl

private theorem aspect_of {imshow : Option Kwds} {r : ℚ} (h : Aspect imshow r) :
    aspect (setDefault "cmap" (.text "gray".toList) (imshow.getD [])) = .ok r := by
  rw [aspect, getKw_default, if_neg (by decide)]
  rcases h with ⟨h, rfl⟩ | h <;> rw [h]

private theorem shape_regular (a : Array') :
    ∃ t, shapeOf (regular a) = shapeOf a ++ t ∧ (t = [] ∨ t = [3] ∨ t = [4]) := by
  cases a with
  | reg a => exact ⟨[], by simp [regular, isRgbx, isRgb, isRgba], .inl rfl⟩
  | rgb a =>
    obtain ⟨w, al, sh, px⟩ := a
    cases al
    · exact ⟨[3], rfl, .inr (.inl rfl)⟩
    · exact ⟨[4], rfl, .inr (.inr rfl)⟩

private theorem size_of {s : Signal} {ay ax : Axis} (h : Image s ay ax) (hx : ax.size ≠ 0)
    {o : Opts} {r : ℚ} (hr : Aspect o.imshow r) {W H : ℚ} (hw : Wanted ay ax r W H o.size) :
    outputSize (ay, ax) (shapeOf (regular s.data))
      (setDefault "cmap" (.text "gray".toList) (o.imshow.getD [])) o.size = .ok [W, H] := by
  have hq : (ax.size : ℚ) ≠ 0 := by exact_mod_cast hx
  obtain ⟨t, ht, _⟩ := shape_regular s.data
  rcases e : o.size with _ | q | l <;> rw [e] at hw
  · obtain ⟨rfl, rfl⟩ := hw
    simp only [outputSize, aspect_of hr]
    simp [bind, Except.bind, pure, Except.pure]
  · obtain ⟨rfl, hH⟩ := hw
    rw [ht, h.2.2]
    simp only [outputSize, aspect_of hr, List.cons_append, ratio, if_neg hx]
    have : W * (r * ((ay.size : ℚ) / ax.size)) = H := by
      field_simp
      linarith
    simp [bind, Except.bind, pure, Except.pure, this]
  · have hl : l = [W, H] := hw
    subst hl
    rfl

private theorem inches_of {W H : ℚ} (hW : 0 ≤ W) (hH : 0 ≤ H) :
    inchesOf [W, H] = .ok [W / 100, H / 100] := by
  have h1 : ¬ W < 0 := not_lt.2 hW
  have h2 : ¬ H < 0 := not_lt.2 hH
  simp [inchesOf, h1, h2]

private theorem shows {s : Signal} {ay ax : Axis} (h : Image s ay ax) :
    imshowOf (regular s.data) = .ok () := by
  obtain ⟨t, ht, h3⟩ := shape_regular s.data
  rw [imshowOf, ht, h.2.2]
  rcases h3 with rfl | rfl | rfl <;> rfl

private theorem prepare_of {w : World} {ext : Text} {s : Signal} {o : Opts} {ay ax : Axis}
    (h : Image s ay ax) (hx : ax.size ≠ 0) {r : ℚ} (hr : Aspect o.imshow r) {W H : ℚ}
    (hw : Wanted ay ax r W H o.size) (hW : 0 ≤ W) (hH : 0 ≤ H) (hp : w.plotLib = true)
    (hf : ext.filter (· ≠ '.') ∈ w.formats) :
    prepare w ext s o = .ok ((ay, ax), [W / 100, H / 100],
      setDefault "cmap" (.text "gray".toList) (o.imshow.getD [])) := by
  unfold prepare
  simp only [hp, axes_of h, checkFormat, if_pos hf, bind, Except.bind, pure, Except.pure,
    Bool.not_true, Bool.false_eq_true, if_false, size_of h hx hr hw, inches_of hW hH]

/-- C145, figures. An image with a size or options for showing is written as a figure of the asked
width and height in pixels (those of the image, times the aspect for the heights, if only the width
or none is asked for); with all its pixels and colours, and the options given, in grey unless another
map is given.

The full claim is this for all images and all options. Missing: aspects given as texts and formats
in capitals (`C145_fails_equal`, `C145_fails_capitals`); images in stacks have the wrong size
(`C145_fails_stack`). -/
theorem C145_figure_partial (w : World) (ext : Text) (s : Signal) (o : Opts) (ay ax : Axis)
    (h : Image s ay ax) (hx : ax.size ≠ 0) (r : ℚ) (hr : Aspect o.imshow r) (W H : ℚ)
    (hw : Wanted ay ax r W H o.size) (hW : 0 ≤ W) (hH : 0 ≤ H) (hp : w.plotLib = true)
    (hf : ext.filter (· ≠ '.') ∈ w.formats) (hs : o.scalebar = false) (hb : ¬ Bare w o) :
    ∃ inches dpi d kw k, write w ext s o = .ok (.figure inches dpi d kw none, k) ∧
      inches.map (· * dpi) = [W, H] ∧ Channels s.data d ∧
      (∀ x v, getKw x (o.imshow.getD []) = some v → getKw x kw = some v) ∧
      (getKw "cmap".toList (o.imshow.getD []) = none →
        getKw "cmap".toList kw = some (.text "gray".toList)) ∧
      (∀ x, x ≠ "cmap".toList → getKw x (o.imshow.getD []) = none → getKw x kw = none) := by
  refine ⟨[W / 100, H / 100], 100, _, setDefault "cmap" (.text "gray".toList) (o.imshow.getD []),
    barDefaults o.barKwds, ?_, ?_, channels s.data, ?_, ?_, ?_⟩
  · rw [write]
    have e : usesFigure (o.scalebar && w.barLib) o = true := by
      cases e : usesFigure (o.scalebar && w.barLib) o
      · exact absurd ((figure_iff w o).1 e) hb
      · rfl
    dsimp only
    rw [if_pos e, prepare_of h hx hr hw hW hH hp hf, hs, Bool.false_and]
    simp only [barPart, Bool.false_eq_true, if_false, shows h]
    rfl
  · simp
  · intro x v hv
    rw [getKw_default]
    split
    · rw [hv]; rfl
    · exact hv
  · intro hn
    rw [getKw_default, if_pos rfl, hn]; rfl
  · intro x hx hn
    rw [getKw_default, if_neg hx]; exact hn

/-- A world with everything, where `1/nm` is a reciprocal length. -/
def everything : World := ⟨true, true, ["png".toList, "tif".toList],
  fun u => if u = "zorglub".toList then .error .valueError else .ok (u = "1/nm".toList, u)⟩

/-- An image of 480 rows and 640 columns asked for with a width of 320. -/
def picture : Signal := ⟨.reg ⟨.u1, [480, 640], []⟩,
  [⟨false, 480, 2, some "nm".toList⟩, ⟨false, 640, 2, some "nm".toList⟩]⟩

example : Image picture ⟨false, 480, 2, some "nm".toList⟩ ⟨false, 640, 2, some "nm".toList⟩ ∧
    Aspect none 1 ∧
    Wanted ⟨false, 480, 2, none⟩ ⟨false, 640, 2, none⟩ 1 320 240 (some (.num 320)) ∧
    ¬ Bare everything ⟨false, none, some (.num 320), none⟩ :=
  ⟨⟨rfl, rfl, rfl⟩, .inl ⟨rfl, rfl⟩, ⟨rfl, by norm_num⟩, by simp [Bare]⟩

/-- C145, refusals. A figure is not written for a size that is a sequence of other than two numbers,
for signals with neither two signal axes nor two navigation axes, in other formats, and without
`matplotlib`. -/
theorem C145_refused (w : World) (ext : Text) (s : Signal) (o : Opts) (hb : ¬ Bare w o)
    (h : (∃ l, o.size = some (.seq l) ∧ l.length ≠ 2) ∨
      ((s.axes.filter fun a => a.navigate = false).length ≠ 2 ∧
        (s.axes.filter fun a => a.navigate = true).length ≠ 2) ∨
      ext.filter (· ≠ '.') ∉ w.formats ∨ w.plotLib = false) :
    ∃ e, write w ext s o = .error e := by
  rw [write]
  have e : usesFigure (o.scalebar && w.barLib) o = true := by
    cases e : usesFigure (o.scalebar && w.barLib) o
    · exact absurd ((figure_iff w o).1 e) hb
    · rfl
  simp only [e, if_true]
  have q : ∃ e, prepare w ext s o = .error e := by
    unfold prepare
    by_cases hp : w.plotLib
    swap
    · exact ⟨.valueError, by simp [hp, throw, throwThe, MonadExceptOf.throw, bind, Except.bind]⟩
    simp only [hp, Bool.not_true, Bool.false_eq_true, if_false, bind, Except.bind, pure, Except.pure]
    cases a : axesOf s.axes with
    | error e => exact ⟨e, rfl⟩
    | ok axes =>
      dsimp only
      cases b : outputSize axes (shapeOf (regular s.data))
        (setDefault "cmap" (.text "gray".toList) (o.imshow.getD [])) o.size with
      | error e => exact ⟨e, rfl⟩
      | ok size =>
        dsimp only
        cases c : inchesOf size with
        | error e => exact ⟨e, rfl⟩
        | ok inches =>
          dsimp only
          rcases h with ⟨l, hl, hn⟩ | ⟨h1, h2⟩ | hf | hf
          · rw [hl, outputSize, if_pos hn] at b
            cases b
          · rw [axesOf] at a
            split at a
            · rename_i x y hxy
              apply absurd _ h1
              have : (fun a : Axis => !a.navigate) = fun a => decide (a.navigate = false) := by
                funext a; cases a.navigate <;> rfl
              rw [← this, hxy]; rfl
            · split at a
              · rename_i x y hxy
                apply absurd _ h2
                have : (fun a : Axis => a.navigate) = fun a => decide (a.navigate = true) := by
                  funext a; cases a.navigate <;> rfl
                rw [← this, hxy]; rfl
              · cases a
          · exact ⟨.valueError, by rw [checkFormat, if_neg hf]⟩
          · exact absurd hp (by simp [hf])
  obtain ⟨x, hx⟩ := q
  exact ⟨x, by rw [hx]; rfl⟩

example : ¬ Bare everything ⟨false, none, some (.seq [320, 240, 3]), none⟩ ∧
    write everything ".png".toList picture ⟨false, none, some (.seq [320, 240, 3]), none⟩ =
      .error .valueError :=
  ⟨by simp [Bare], rfl⟩

/-- The ratios of `imshow` that are texts cannot be used without a width and a height. -/
theorem C145_fails_equal :
    write everything ".png".toList picture
      ⟨false, none, none, some [("aspect".toList, .text "equal".toList)]⟩ = .error .typeError ∧
    write everything ".png".toList picture
      ⟨false, none, some (.num 320), some [("aspect".toList, .text "auto".toList)]⟩ =
        .error .typeError := ⟨rfl, rfl⟩

/-- An image cannot be written with a size if the extension is in capitals. -/
theorem C145_fails_capitals :
    write everything ".PNG".toList picture ⟨false, none, some (.seq [320, 240]), none⟩ =
      .error .valueError ∧
    ∃ f k, write everything ".png".toList picture ⟨false, none, some (.seq [320, 240]), none⟩ =
      .ok (f, k) := by
  have q : (write everything ".png".toList picture
      ⟨false, none, some (.seq [320, 240]), none⟩).toOption.isSome = true := by decide +kernel
  refine ⟨by decide +kernel, ?_⟩
  cases e : write everything ".png".toList picture ⟨false, none, some (.seq [320, 240]), none⟩ with
  | error x => rw [e] at q; cases q
  | ok x => exact ⟨x.1, x.2, rfl⟩

/-- A stack of ten images of 5 by 3 pixels is shown as a colour image of 10 by 5 pixels: with a width
of 100 it is 200 pixels high. -/
theorem C145_fails_stack : ∃ d kw k,
    write everything ".png".toList ⟨.reg ⟨.u1, [10, 5, 3], []⟩,
        [⟨true, 10, 1, none⟩, ⟨false, 5, 1, none⟩, ⟨false, 3, 1, none⟩]⟩
      ⟨false, none, some (.num 100), none⟩ = .ok (.figure [1, 2] 100 d kw none, k) := by
  exact ⟨.reg ⟨.u1, [10, 5, 3], []⟩, [("cmap".toList, .text "gray".toList)], barDefaults none,
    by decide +kernel⟩

/-- Over the width of the image, the scales of the two axes differ by at most a tenth of a pixel (of
the larger one). -/
def Square (ay ax : Axis) : Prop :=
  |(|ay.scale| - |ax.scale|)| * ax.size ≤ max |ay.scale| |ax.scale| / 10

/-- What the scale bar shows for the units: pixels without units, else the short name. -/
def Shown (w : World) : Option Text → Bool → Text → Prop
  | none, r, t => r = false ∧ t = "px".toList
  | some u, r, t => w.units u = .ok (r, t)

private theorem close_iff {ay ax : Axis} (hx : ax.size ≠ 0) :
    isClose |ay.scale| |ax.scale| (1 / 10 / ax.size) = true ↔ Square ay ax := by
  have hq : (0 : ℚ) < ax.size := by exact_mod_cast Nat.pos_of_ne_zero hx
  rw [isClose, decide_eq_true_eq, Square, abs_abs, abs_abs]
  have e : (1 : ℚ) / 10 / ax.size * max |ay.scale| |ax.scale| =
      max |ay.scale| |ax.scale| / 10 / ax.size := by ring
  rw [e, le_div_iff₀ hq]

private theorem scale_ok {ay ax : Axis} (hx : ax.size ≠ 0) (hu : ay.units = ax.units)
    (hq : Square ay ax) : checkScale (ay, ax) = .ok () := by
  have hn : ¬ (ay.units ≠ ax.units) := fun h => h hu
  unfold checkScale
  dsimp only
  rw [if_neg hn, if_neg hx, if_pos ((close_iff hx).2 hq)]

private theorem uses_bar (w : World) (o : Opts) (hl : w.barLib = true) (hs : o.scalebar = true) :
    usesFigure (o.scalebar && w.barLib) o = true := by simp [usesFigure, hl, hs]

/-- The options of the bar: those given, a box of opacity 3/4 and the lower left corner unless given,
and the dimension `dim` if there is one. -/
def Options (given : Kwds) (dim : Option Text) (kw : Kwds) : Prop :=
  (∀ x v, x ≠ "dimension".toList → getKw x given = some v → getKw x kw = some v) ∧
  (getKw "box_alpha".toList given = none → getKw "box_alpha".toList kw = some (.num (3 / 4))) ∧
  (getKw "location".toList given = none →
    getKw "location".toList kw = some (.text "lower left".toList)) ∧
  (∀ x, getKw x given = none → x ∉ ["dimension".toList, "box_alpha".toList, "location".toList] →
    getKw x kw = none) ∧
  getKw "dimension".toList kw = ((dim.map Val.text).or (getKw "dimension".toList given))

private theorem default_get (given : Option Kwds) (x : Text) :
    getKw x (barDefaults given) =
      if x = "location".toList then some ((getKw x (given.getD [])).getD (.text "lower left".toList))
      else if x = "box_alpha".toList then some ((getKw x (given.getD [])).getD (.num (3 / 4)))
      else getKw x (given.getD []) := by
  rw [barDefaults, getKw_default, getKw_default]
  by_cases h : x = "location".toList
  · subst h
    rw [if_pos rfl, if_neg (by decide), if_pos rfl]
  · rw [if_neg h, if_neg h]

private theorem options_none (given : Option Kwds) :
    Options (given.getD []) none (barDefaults given) := by
  refine ⟨fun x v _ h => ?_, fun h => ?_, fun h => ?_, fun x h hx => ?_, ?_⟩
  · rw [default_get, h]; split_ifs <;> rfl
  · rw [default_get, h]; rfl
  · rw [default_get, h]; rfl
  · simp only [List.mem_cons, List.not_mem_nil, or_false, not_or] at hx
    rw [default_get, if_neg hx.2.2, if_neg hx.2.1, h]
  · rw [default_get, if_neg (by decide), if_neg (by decide)]; rfl

private theorem options_some {given kw : Kwds} (d : Text) (h : Options given none kw) :
    Options given (some d) (setKw "dimension".toList (.text d) kw) := by
  obtain ⟨h1, h2, h3, h4, h5⟩ := h
  refine ⟨fun x v hx hv => ?_, fun h => ?_, fun h => ?_, fun x h hx => ?_, ?_⟩
  · rw [getKw_setKw _ _ _ hx]; exact h1 x v hx hv
  · rw [getKw_setKw _ _ _ (by decide)]; exact h2 h
  · rw [getKw_setKw _ _ _ (by decide)]; exact h3 h
  · rw [getKw_setKw _ _ _ (fun e => hx (by rw [e]; simp))]; exact h4 x h hx
  · rw [getKw_setKw_same]; rfl

private theorem bar_of (w : World) (axis : Axis) (given : Option Kwds) (rec : Bool) (t : Text)
    (h : Shown w axis.units rec t) :
    ∃ b, barOf w axis (barDefaults given) = .ok b ∧ b.scale = axis.scale ∧ b.units = t ∧
      Options (given.getD []) (if axis.units = none then some "pixel-length".toList
        else if rec then some "si-length-reciprocal".toList else none) b.kwds := by
  unfold barOf
  rcases e : axis.units with _ | u <;> rw [e] at h
  · obtain ⟨rfl, rfl⟩ := h
    refine ⟨_, rfl, rfl, rfl, ?_⟩
    rw [if_pos rfl]
    exact options_some _ (options_none given)
  · have hu : w.units u = .ok (rec, t) := h
    refine ⟨⟨axis.scale, t, if rec then setKw "dimension".toList
      (.text "si-length-reciprocal".toList) (barDefaults given) else barDefaults given⟩, ?_, rfl, rfl, ?_⟩
    · dsimp only
      rw [hu]
      rfl
    · rw [if_neg (by simp)]
      cases rec
      · exact options_none given
      · exact options_some _ (options_none given)

/-- C146, the bar. An image with the same units on both axes and the same scale, up to a tenth of a
pixel over its width, is written with a scale bar of its scale and units: lengths, reciprocal
lengths, or pixels without units. The options of the bar are those given. -/
theorem C146_bar (w : World) (ext : Text) (s : Signal) (o : Opts) (ay ax : Axis)
    (h : Image s ay ax) (hx : ax.size ≠ 0) (r : ℚ) (hr : Aspect o.imshow r) (W H : ℚ)
    (hw : Wanted ay ax r W H o.size) (hW : 0 ≤ W) (hH : 0 ≤ H) (hp : w.plotLib = true)
    (hf : ext.filter (· ≠ '.') ∈ w.formats) (hs : o.scalebar = true) (hl : w.barLib = true)
    (hu : ay.units = ax.units) (hq : Square ay ax) (rec : Bool) (t : Text)
    (ht : Shown w ay.units rec t) :
    ∃ inches dpi d kw b k, write w ext s o = .ok (.figure inches dpi d kw (some b), k) ∧
      inches.map (· * dpi) = [W, H] ∧ Channels s.data d ∧ b.scale = ay.scale ∧ b.units = t ∧
      Options (o.barKwds.getD []) (if ay.units = none then some "pixel-length".toList
        else if rec then some "si-length-reciprocal".toList else none) b.kwds := by
  obtain ⟨b, hb, h1, h2, h3⟩ := bar_of w ay o.barKwds rec t ht
  refine ⟨[W / 100, H / 100], 100, _, setDefault "cmap" (.text "gray".toList) (o.imshow.getD []),
    b, b.kwds, ?_, by simp, channels s.data, h1, h2, h3⟩
  rw [write]
  dsimp only
  rw [if_pos (uses_bar w o hl hs), prepare_of h hx hr hw hW hH hp hf, hs, hl, Bool.true_and]
  simp only [barPart, if_true, shows h, scale_ok hx hu hq, bind, Except.bind, hb, pure, Except.pure]

/-- The picture above, and one of 100 columns whose scales differ by a thousandth. -/
example : Square ⟨false, 480, 2, some "nm".toList⟩ ⟨false, 640, -2, some "nm".toList⟩ ∧
    Square ⟨false, 80, 1, none⟩ ⟨false, 100, 999 / 1000, none⟩ ∧
    ¬ Square ⟨false, 80, 1, none⟩ ⟨false, 100, 998 / 1000, none⟩ ∧
    Shown everything (some "1/nm".toList) true "1/nm".toList := by
  refine ⟨?_, ?_, ?_, rfl⟩ <;> unfold Square <;> norm_num [abs_of_nonneg]

/-- C146, refusals. Images whose axes have other units, or whose scales differ by more than a tenth
of a pixel over the width, are not written with a scale bar. -/
theorem C146_refused (w : World) (ext : Text) (s : Signal) (o : Opts) (ay ax : Axis)
    (h : Image s ay ax) (hs : o.scalebar = true) (hl : w.barLib = true)
    (hn : ay.units ≠ ax.units ∨ ¬ Square ay ax) : ∃ e, write w ext s o = .error e := by
  have q : ∃ e, checkScale (ay, ax) = .error e := by
    unfold checkScale
    dsimp only
    by_cases hu : ay.units ≠ ax.units
    · exact ⟨_, if_pos hu⟩
    rw [if_neg hu]
    by_cases hx : ax.size = 0
    · exact ⟨_, if_pos hx⟩
    rw [if_neg hx, if_neg]
    · exact ⟨_, rfl⟩
    · rw [close_iff hx]
      exact hn.resolve_left hu
  obtain ⟨e, he⟩ := q
  rw [write]
  dsimp only
  rw [if_pos (uses_bar w o hl hs)]
  cases a : prepare w ext s o with
  | error x => exact ⟨x, rfl⟩
  | ok p =>
    have : p.1 = (ay, ax) := by
      unfold prepare at a
      simp only [axes_of h, bind, Except.bind, pure, Except.pure] at a
      split at a
      · cases a
      · repeat' split at a
        all_goals first | (cases a; done) | (cases a; rfl)
    refine ⟨e, ?_⟩
    simp only [bind, Except.bind, hs, hl, Bool.true_and, barPart, if_true, this, he]

/-- C146, no library. Without `matplotlib_scalebar` the image is written as without a scale bar. -/
theorem C146_no_library (w : World) (ext : Text) (s : Signal) (o : Opts) (hl : w.barLib = false) :
    write w ext s { o with scalebar := true } = write w ext s { o with scalebar := false } := by
  unfold write
  simp only [hl, Bool.and_false]
  rfl

private theorem defaults_again (kwds : Option Kwds) :
    barDefaults (some (barDefaults kwds)) = barDefaults kwds := by
  have hb : ∃ v, getKw "box_alpha".toList (barDefaults kwds) = some v := by
    rw [default_get]; exact ⟨_, rfl⟩
  have hl : ∃ v, getKw "location".toList (barDefaults kwds) = some v := by
    rw [default_get]; exact ⟨_, rfl⟩
  obtain ⟨v, hv⟩ := hb
  obtain ⟨u, hu⟩ := hl
  have : setDefault "box_alpha" (.num (3 / 4)) (barDefaults kwds) = barDefaults kwds := by
    rw [setDefault, hv]
  show setDefault "location" _ (setDefault "box_alpha" _ (barDefaults kwds)) = barDefaults kwds
  rw [this, setDefault, hu]

private theorem write_again (w : World) (ext : Text) (s : Signal) (o : Opts) :
    write w ext s { o with barKwds := some (barDefaults o.barKwds) } = write w ext s o := by
  unfold write
  dsimp only
  rw [defaults_again]
  rfl

private theorem unchanged (w : World) (ext : Text) (s : Signal) (o : Opts)
    (h : o.scalebar = true → ∀ a ∈ s.axes, ∃ u t, a.units = some u ∧ w.units u = .ok (false, t)) :
    ∀ r, write w ext s o = .ok r → r.2 = barDefaults o.barKwds := by
  intro r hr
  unfold write at hr
  dsimp only at hr
  split at hr
  · cases a : prepare w ext s o with
    | error e => rw [a] at hr; cases hr
    | ok p =>
      rw [a] at hr
      simp only [bind, Except.bind] at hr
      have hp : p.1.1 ∈ s.axes := by
        unfold prepare at a
        simp only [bind, Except.bind, pure, Except.pure] at a
        split at a
        · cases a
        · cases b : axesOf s.axes with
          | error e => rw [b] at a; cases a
          | ok q =>
            rw [b] at a
            have hq : q.1 ∈ s.axes := by
              unfold axesOf at b
              split at b
              · rename_i x y hxy
                injection b with b
                rw [← b]
                exact (List.mem_filter.1 (hxy ▸ List.mem_cons_self : x ∈ s.axes.filter _)).1
              · split at b
                · rename_i x y hxy
                  injection b with b
                  rw [← b]
                  exact (List.mem_filter.1 (hxy ▸ List.mem_cons_self : x ∈ s.axes.filter _)).1
                · cases b
            dsimp only at a
            repeat' split at a
            all_goals first | (cases a; done) | (cases a; exact hq)
      cases b : barPart w (o.scalebar && w.barLib) p.1 (regular s.data) (barDefaults o.barKwds) with
      | error e => rw [b] at hr; cases hr
      | ok q =>
        rw [b] at hr
        injection hr with hr
        rw [← hr]
        dsimp only
        unfold barPart at b
        split at b
        · rename_i hbar
          have hs : o.scalebar = true := by
            cases e : o.scalebar
            · rw [e] at hbar; cases hbar
            · rfl
          obtain ⟨u, t, hu, ht⟩ := h hs _ hp
          simp only [bind, Except.bind, barOf, hu, ht, pure, Except.pure, Bool.false_eq_true,
            if_false] at b
          repeat' split at b
          all_goals first | cases b | skip
          rfl
        · simp only [bind, Except.bind, pure, Except.pure] at b
          split at b
          · cases b
          · injection b with b
            rw [← b]
  · injection hr with hr
    rw [← hr]

/-- C146, several images. Images written one after the other with the same options are each written
as if alone.

The full claim is this for all options and images. Missing: options given as a dictionary, which is
changed, unless the units of all images are such that neither pixels nor reciprocal lengths are shown
(`C146_fails_dimension`). -/
theorem C146_alone_partial (w : World) (ext : Text) (o : Opts) (l : List Signal)
    (h : o.barKwds = none ∨ o.scalebar = false ∨ ∀ s ∈ l, ∀ a ∈ s.axes, ∃ u t, a.units = some u ∧
      w.units u = .ok (false, t)) :
    writeAll w ext o l = l.mapM fun s => (write w ext s o).map Prod.fst := by
  have gen : ∀ (l : List Signal) (o' : Opts), (o' = o ∨ o' = { o with barKwds := some (barDefaults o.barKwds) }) →
      (o.barKwds = none → o' = o) → (o.barKwds = none ∨ o.scalebar = false ∨ ∀ s ∈ l, ∀ a ∈ s.axes, ∃ u t,
        a.units = some u ∧ w.units u = .ok (false, t)) →
      writeAll w ext o' l = l.mapM fun s => (write w ext s o).map Prod.fst := by
    intro l
    induction l with
    | nil => intro o' _ _ _; rfl
    | cons s l ih =>
      intro o' ho hnone hall
      have same : write w ext s o' = write w ext s o := by
        rcases ho with rfl | rfl
        · rfl
        · exact write_again w ext s o
      rw [writeAll, List.mapM_cons, same]
      cases e : write w ext s o with
      | error x => rfl
      | ok r =>
        have next : writeAll w ext (if o'.barKwds.isSome then { o' with barKwds := some r.2 } else o') l =
            l.mapM fun s => (write w ext s o).map Prod.fst := by
          have hall' : o.barKwds = none ∨ o.scalebar = false ∨ ∀ s ∈ l, ∀ a ∈ s.axes, ∃ u t,
              a.units = some u ∧ w.units u = .ok (false, t) :=
            hall.imp_right (·.imp_right fun h s hs => h s (List.mem_cons_of_mem _ hs))
          by_cases hk : o.barKwds = none
          · have := hnone hk
            subst this
            rw [hk]
            exact ih _ (.inl rfl) (fun _ => rfl) hall'
          · have hr : r.2 = barDefaults o.barKwds := by
              apply unchanged w ext s o _ r e
              intro hs a ha
              rcases hall with h | h | h
              · exact absurd h hk
              · rw [hs] at h; cases h
              · exact h s List.mem_cons_self a ha
            have hsome : o'.barKwds.isSome = true := by
              rcases ho with rfl | rfl
              · exact Option.isSome_iff_ne_none.2 hk
              · rfl
            rw [if_pos hsome]
            refine ih _ (.inr ?_) (fun h => absurd h hk) hall'
            rw [hr]
            rcases ho with rfl | rfl <;> rfl
        have next' := next
        simp only [bind, Except.bind, Except.map] at next' ⊢
        rw [next']
  exact gen l o (.inl rfl) (fun _ => rfl) h

/-- A diffraction pattern. -/
def pattern : Signal := ⟨.reg ⟨.u1, [256, 256], []⟩,
  [⟨false, 256, 1 / 10, some "1/nm".toList⟩, ⟨false, 256, 1 / 10, some "1/nm".toList⟩]⟩

/-- Two pictures with the options given as a dictionary. -/
example : (∀ s ∈ [picture, picture], ∀ a ∈ s.axes, ∃ u t, a.units = some u ∧
      everything.units u = .ok (false, t)) ∧
    (writeAll everything ".png".toList ⟨true, some [], none, none⟩ [picture, picture]).toOption.isSome =
      true := by
  refine ⟨?_, by decide +kernel⟩
  intro s hs a ha
  simp only [List.mem_cons, List.not_mem_nil, or_false, or_self] at hs
  subst hs
  simp only [picture, List.mem_cons, List.not_mem_nil, or_false] at ha
  rcases ha with rfl | rfl <;> exact ⟨_, _, rfl, rfl⟩

/-- The dimension of a scale bar in a list of written images. -/
def dims (l : Py (List Out)) : List (Option Val) := (l.toOption.getD []).map fun
  | .figure _ _ _ _ (some b) => getKw "dimension".toList b.kwds
  | _ => none

/-- With options given as a dictionary, a picture after a diffraction pattern gets the bar of
reciprocal lengths, because the dictionary of the caller is changed. -/
theorem C146_fails_dimension :
    dims (writeAll everything ".png".toList ⟨true, some [], none, none⟩ [pattern, picture]) =
      [some (.text "si-length-reciprocal".toList), some (.text "si-length-reciprocal".toList)] ∧
    dims (writeAll everything ".png".toList ⟨true, none, none, none⟩ [pattern, picture]) =
      [some (.text "si-length-reciprocal".toList), none] := by
  constructor <;> decide +kernel

end Verif.Props.ImageWrite
