import Verif.Model.Netcdf
import Mathlib.Tactic.IntervalCases
/-!
C100: EELSLab files keep their data and their axes.
-/
namespace Verif.Props.Netcdf
open Verif.Netcdf Verif.Distributed

/-- The value of an attribute: the first of an array. -/
def attrValue (attrs : List (String × Attr)) (name : String) : Option Val :=
  match attrs.lookup name with
  | some (.one v) => some v
  | some (.array (v :: _)) => some v
  | _ => none

/-- The name of the axis that has `j` axes after it. -/
def axisName (image : Bool) (j : Nat) : String :=
  match image, j with
  | true, 0 => "X" | true, 1 => "Y" | true, _ => "Z"
  | false, 0 => "Energy" | false, 1 => "X" | false, _ => "Y"

/-- The beginning of the names of the attributes of that axis. -/
def axisPrefix (image : Bool) (j : Nat) : String :=
  match image, j with
  | true, 0 => "x" | true, 1 => "y" | true, _ => "z"
  | false, 0 => "energy" | false, 1 => "x" | false, _ => "y"

/-- All axes have this attribute. -/
def AllPresent (attrs : List (String × Attr)) (image : Bool) (dim : Nat) (suffix : String) : Prop :=
  ∀ j < dim, attrValue attrs (axisPrefix image j ++ suffix) ≠ none

private theorem collect_spec (attrs : List (String × Attr))
    (hne : ∀ name, attrs.lookup name ≠ some (.array [])) :
    ∀ table : List (String × String), (table.map Prod.fst).Nodup →
    ∃ d, collect attrs table = .ok d ∧
      (∀ key name, (key, name) ∈ table → d.lookup key = attrValue attrs name) ∧
      (∀ key, key ∉ table.map Prod.fst → d.lookup key = none)
  | [], _ => ⟨[], rfl, by simp, by simp⟩
  | (k, n) :: rest, hnd => by
    rw [List.map_cons, List.nodup_cons] at hnd
    obtain ⟨d, h1, h2, h3⟩ := collect_spec attrs hne rest hnd.2
    have tail : ∀ d' : List (String × Val), (∀ key, key ≠ k → d'.lookup key = d.lookup key) →
        d'.lookup k = attrValue attrs n →
        (∀ key name, (key, name) ∈ (k, n) :: rest → d'.lookup key = attrValue attrs name) ∧
        (∀ key, key ∉ ((k, n) :: rest).map Prod.fst → d'.lookup key = none) := by
      intro d' ha hb
      constructor
      · intro key name hm
        rcases List.mem_cons.1 hm with h | h
        · cases h
          exact hb
        · have : key ≠ k := by
            rintro rfl
            exact hnd.1 (List.mem_map.2 ⟨_, h, rfl⟩)
          rw [ha key this, h2 key name h]
      · intro key hk
        rw [List.map_cons, List.mem_cons, not_or] at hk
        rw [ha key hk.1, h3 key hk.2]
    cases hl : attrs.lookup n with
    | none =>
      refine ⟨d, by rw [collect, hl]; exact h1, tail d (fun _ _ => rfl) ?_⟩
      rw [h3 k hnd.1, attrValue, hl]
    | some a =>
      have hv : ∃ v, scalar a = .ok v ∧ attrValue attrs n = some v := by
        rw [attrValue, hl]
        cases a with
        | one v => exact ⟨v, rfl, rfl⟩
        | array l =>
          cases l with
          | nil => exact absurd hl (hne n)
          | cons v l => exact ⟨v, rfl, rfl⟩
      obtain ⟨v, hv1, hv2⟩ := hv
      refine ⟨(k, v) :: d, by rw [collect, hl]; dsimp only; rw [hv1, h1],
        tail _ (fun key hk => ?_) ?_⟩
      · rw [List.lookup_cons, show (key == k) = false by simpa using hk]
      · rw [hv2]
        simp

private theorem mapM_some {f : String → Option Val} {keys : List String} {d : List Val}
    (h : ∀ k ∈ keys, f k ≠ none) :
    (keys.mapM f).getD d = keys.map fun k => (f k).getD (.num 0) := by
  have : keys.mapM f = some (keys.map fun k => (f k).getD (.num 0)) := by
    induction keys with
    | nil => rfl
    | cons a l ih =>
      rw [List.mapM_cons, ih (fun k hk => h k (by simp [hk]))]
      cases ha : f a with
      | none => exact absurd ha (h a (by simp))
      | some v => simp [ha]
  rw [this]
  rfl

private theorem mapM_none {f : String → Option Val} {keys : List String} {d : List Val}
    (h : ∃ k ∈ keys, f k = none) : (keys.mapM f).getD d = d := by
  have : keys.mapM f = none := by
    induction keys with
    | nil => obtain ⟨k, hk, _⟩ := h; cases hk
    | cons a l ih =>
      rw [List.mapM_cons]
      cases ha : f a with
      | none => rfl
      | some v =>
        rw [ih ?_]
        · rfl
        · obtain ⟨k, hk, hn⟩ := h
          rcases List.mem_cons.1 hk with e | e
          · subst e; rw [ha] at hn; cases hn
          · exact ⟨k, e, hn⟩
  rw [this]
  rfl

/-- What an axis looks like for the given attribute values. -/
private theorem values_spec (cal : List (String × Val)) (keys : List String) (d : List Val) (i : Nat)
    (hd : keys.length ≤ d.length) (hi : i < keys.length) :
    ∃ v, (values cal keys d)[i]? = some v ∧
      ((∀ k ∈ keys, cal.lookup k ≠ none) → ∀ k, keys[i]? = some k → cal.lookup k = some v) ∧
      ((∃ k ∈ keys, cal.lookup k = none) → d[i]? = some v) := by
  unfold values
  by_cases h : ∀ k ∈ keys, cal.lookup k ≠ none
  · rw [mapM_some h]
    refine ⟨(cal.lookup keys[i]).getD (.num 0), by simp [hi], fun _ k hk => ?_, fun ⟨k, hk, hn⟩ =>
      absurd hn (h k hk)⟩
    rw [List.getElem?_eq_getElem hi, Option.some.injEq] at hk
    subst hk
    cases hc : cal.lookup keys[i] with
    | none => exact absurd hc (h _ (by simp))
    | some v => rfl
  · have h' : ∃ k ∈ keys, cal.lookup k = none := by push Not at h; exact h
    rw [mapM_none h']
    exact ⟨d[i], by simp, fun h'' => absurd h'' h, fun _ => by simp⟩

private theorem keys_spec (image : Bool) (dim : Nat) (h1 : 1 ≤ dim) (h3 : dim ≤ 3) :
    (∀ i < dim, (sliceFrom (keysOf image).names (3 - (dim : Int)))[i]? =
      some (axisName image (dim - 1 - i))) ∧
    (sliceFrom (keysOf image).scales (3 - (dim : Int))).length = dim ∧
    (sliceFrom (keysOf image).origins (3 - (dim : Int))).length = dim ∧
    (sliceFrom (keysOf image).units (3 - (dim : Int))).length = dim ∧
    (∀ i < dim, ((sliceFrom (keysOf image).scales (3 - (dim : Int)))[i]?.getD "",
      axisPrefix image (dim - 1 - i) ++ "_scale") ∈ attrib2netcdf) ∧
    (∀ i < dim, ((sliceFrom (keysOf image).origins (3 - (dim : Int)))[i]?.getD "",
      axisPrefix image (dim - 1 - i) ++ "_origin") ∈ attrib2netcdf) ∧
    (∀ i < dim, ((sliceFrom (keysOf image).units (3 - (dim : Int)))[i]?.getD "",
      axisPrefix image (dim - 1 - i) ++ "_units") ∈ attrib2netcdf) ∧
    (sliceFrom [Val.num 1, Val.num 1, Val.num 1] (3 - (dim : Int))).length = dim ∧
    (sliceFrom [Val.num 0, Val.num 0, Val.num 0] (3 - (dim : Int))).length = dim ∧
    (∀ v ∈ sliceFrom [Val.num 1, Val.num 1, Val.num 1] (3 - (dim : Int)), v = .num 1) ∧
    (∀ v ∈ sliceFrom [Val.num 0, Val.num 0, Val.num 0] (3 - (dim : Int)), v = .num 0) := by
  interval_cases dim <;> cases image <;> decide +kernel

/-- One of the three calibrations of an axis. -/
private theorem column_spec (image : Bool) (dim : Nat) (suffix : String) (keys : List String)
    (default : List Val) (v0 : Val) (cal : List (String × Val)) (attrs : List (String × Attr))
    (hcal : ∀ key name, (key, name) ∈ attrib2netcdf → cal.lookup key = attrValue attrs name)
    (hlen : keys.length = dim)
    (hk : ∀ i < dim, (keys[i]?.getD "", axisPrefix image (dim - 1 - i) ++ suffix) ∈ attrib2netcdf)
    (hd : dim ≤ default.length) (hv : ∀ v ∈ default, v = v0) (i : Nat) (hi : i < dim) :
    ∃ v, (values cal keys default)[i]? = some v ∧
      (AllPresent attrs image dim suffix →
        attrValue attrs (axisPrefix image (dim - 1 - i) ++ suffix) = some v) ∧
      (¬ AllPresent attrs image dim suffix → v = v0) := by
  have hl : ∀ j (h : j < dim), cal.lookup (keys[j]'(by omega)) =
      attrValue attrs (axisPrefix image (dim - 1 - j) ++ suffix) := by
    intro j h
    have := hcal _ _ (hk j h)
    rw [List.getElem?_eq_getElem (by omega)] at this
    exact this
  have hall : AllPresent attrs image dim suffix ↔ ∀ k ∈ keys, cal.lookup k ≠ none := by
    constructor
    · intro h k hkm
      obtain ⟨j, hj, rfl⟩ := List.getElem_of_mem hkm
      rw [hl j (by omega)]
      exact h _ (by omega)
    · intro h j hj
      have := h (keys[dim - 1 - j]'(by omega)) (by simp)
      rw [hl _ (by omega), show dim - 1 - (dim - 1 - j) = j by omega] at this
      exact this
  obtain ⟨v, a1, a2, a3⟩ := values_spec cal keys default i (by omega) (by omega)
  refine ⟨v, a1, fun h => ?_, fun h => ?_⟩
  · rw [← hl i hi]
    exact a2 (hall.1 h) _ (List.getElem?_eq_getElem (by omega))
  · rw [hall] at h
    have h' : ∃ k ∈ keys, cal.lookup k = none := by push Not at h; exact h
    exact hv v (List.mem_of_getElem? (a3 h'))

private theorem mapM_ok {β γ : Type} {f : β → Py γ} {P : β → γ → Prop} : ∀ {l : List β},
    (∀ a ∈ l, ∃ b, f a = .ok b ∧ P a b) →
    ∃ r, l.mapM f = .ok r ∧ r.length = l.length ∧
      ∀ (i : Nat) (a : β), l[i]? = some a → ∃ b, r[i]? = some b ∧ P a b
  | [], _ => ⟨[], rfl, rfl, by simp⟩
  | a :: l, h => by
    obtain ⟨b, h1, h2⟩ := h a (by simp)
    obtain ⟨r, h3, h4, h5⟩ := mapM_ok (l := l) fun x hx => h x (by simp [hx])
    refine ⟨b :: r, ?_, by simp [h4], ?_⟩
    · rw [List.mapM_cons, h1, h3]
      rfl
    · intro i x hx
      cases i with
      | zero =>
        rw [List.getElem?_cons_zero, Option.some.injEq] at hx
        subst hx
        exact ⟨b, rfl, h2⟩
      | succ i =>
        rw [List.getElem?_cons_succ] at hx
        exact h5 i x hx

/-- C100 for the axes. -/
private theorem axes_spec (image : Bool) (cal : List (String × Val)) (shape : List Nat)
    (attrs : List (String × Attr))
    (hcal : ∀ key name, (key, name) ∈ attrib2netcdf → cal.lookup key = attrValue attrs name)
    (h1 : 1 ≤ shape.length) (h3 : shape.length ≤ 3) :
    ∃ axes, axesOf image cal shape = .ok axes ∧ axes.length = shape.length ∧
      ∀ i < shape.length, ∃ ax, axes[i]? = some ax ∧ ax.index = i ∧ shape[i]? = some ax.size ∧
        ax.name = axisName image (shape.length - 1 - i) ∧
        (AllPresent attrs image shape.length "_scale" →
          attrValue attrs (axisPrefix image (shape.length - 1 - i) ++ "_scale") = some ax.scale) ∧
        (¬ AllPresent attrs image shape.length "_scale" → ax.scale = .num 1) ∧
        (AllPresent attrs image shape.length "_origin" →
          attrValue attrs (axisPrefix image (shape.length - 1 - i) ++ "_origin") = some ax.offset) ∧
        (¬ AllPresent attrs image shape.length "_origin" → ax.offset = .num 0) ∧
        (AllPresent attrs image shape.length "_units" →
          attrValue attrs (axisPrefix image (shape.length - 1 - i) ++ "_units") = some ax.units) ∧
        (¬ AllPresent attrs image shape.length "_units" → ax.units = .str "") ∧
        (shape.length = 3 → (ax.navigate = true ↔ i < if image then 1 else 2)) := by
  obtain ⟨k1, k2, k3, k4, k5, k6, k7, k8, k9, k10, k11⟩ := keys_spec image shape.length h1 h3
  have nav : ∀ i < shape.length, ∃ b, (keysOf image).navigate[i]? = some b ∧
      (shape.length = 3 → (b = true ↔ i < if image then 1 else 2)) := by
    intro i hi
    generalize shape.length = d at *
    interval_cases d <;> interval_cases i <;> cases image <;> exact ⟨_, rfl, by decide⟩
  unfold axesOf
  dsimp only
  obtain ⟨r, hr, hl, hf⟩ := mapM_ok (P := fun (i : Nat) (ax : Axis) => ax.index = i ∧ shape[i]? = some ax.size ∧
        ax.name = axisName image (shape.length - 1 - i) ∧
        (AllPresent attrs image shape.length "_scale" →
          attrValue attrs (axisPrefix image (shape.length - 1 - i) ++ "_scale") = some ax.scale) ∧
        (¬ AllPresent attrs image shape.length "_scale" → ax.scale = .num 1) ∧
        (AllPresent attrs image shape.length "_origin" →
          attrValue attrs (axisPrefix image (shape.length - 1 - i) ++ "_origin") = some ax.offset) ∧
        (¬ AllPresent attrs image shape.length "_origin" → ax.offset = .num 0) ∧
        (AllPresent attrs image shape.length "_units" →
          attrValue attrs (axisPrefix image (shape.length - 1 - i) ++ "_units") = some ax.units) ∧
        (¬ AllPresent attrs image shape.length "_units" → ax.units = .str "") ∧
        (shape.length = 3 → (ax.navigate = true ↔ i < if image then 1 else 2)))
    (l := List.range shape.length) (f := axisAt shape
      (sliceFrom (keysOf image).names (3 - (shape.length : Int)))
      (values cal (sliceFrom (keysOf image).scales (3 - (shape.length : Int)))
        (sliceFrom [.num 1, .num 1, .num 1] (3 - (shape.length : Int))))
      (values cal (sliceFrom (keysOf image).origins (3 - (shape.length : Int)))
        (sliceFrom [.num 0, .num 0, .num 0] (3 - (shape.length : Int))))
      (values cal (sliceFrom (keysOf image).units (3 - (shape.length : Int)))
        [.str "", .str "", .str ""]) (keysOf image).navigate) (by
    intro i hi
    rw [List.mem_range] at hi
    obtain ⟨s, s1, s2, s3⟩ := column_spec image shape.length "_scale" _ _ (.num 1) cal attrs hcal k2 k5
      (by rw [k8]) k10 i hi
    obtain ⟨o, o1, o2, o3⟩ := column_spec image shape.length "_origin" _ _ (.num 0) cal attrs hcal k3 k6
      (by rw [k9]) k11 i hi
    obtain ⟨u, u1, u2, u3⟩ := column_spec image shape.length "_units" _ [.str "", .str "", .str ""]
      (.str "") cal attrs hcal k4 k7 h3 (by simp) i hi
    obtain ⟨b, b1, b2⟩ := nav i hi
    refine ⟨⟨shape[i], i, axisName image (shape.length - 1 - i), s, o, u, b⟩, ?_, rfl, by simp [hi],
      rfl, s2, s3, o2, o3, u2, u3, b2⟩
    rw [axisAt, k1 i hi, s1, o1, u1, b1, List.getElem?_eq_getElem hi])
  rw [List.length_range] at hl
  exact ⟨r, hr, hl, fun i hi => hf i i (by simp [hi])⟩

/-- C100. A file of EELSLab gives the transposed data and the three dictionaries of attributes;
every axis has the size, name, scale, offset and units of its dimension.

The full claim says `navigate` for all numbers of dimensions and has no `AllPresent`: images are for the last two axes and spectra for
the last one, whatever the number of dimensions (`C100_fails_image`, `C100_fails_spectrum`), and a
missing attribute leaves the other axes alone (`C100_fails_missing`). -/
theorem C100_loads_partial {α : Type} (f : File α) (dc : Var α) (t : String)
    (hv : f.version = some "EELSLab 0.1") (hdc : f.vars.lookup "data_cube" = some dc)
    (ht : f.type = some t) (h1 : 1 ≤ dc.shape.length) (h3 : dc.shape.length ≤ 3)
    (hne : ∀ name, dc.attrs.lookup name ≠ some (.array [])) :
    ∃ r, read f false = .ok r ∧ r.data.shape = dc.shape.reverse ∧
      (∀ idx, r.data.val idx = dc.val idx.reverse) ∧ r.recordBy = t ∧
      r.axes.length = dc.shape.length ∧
      (∀ i < dc.shape.length, ∃ ax, r.axes[i]? = some ax ∧ ax.index = i ∧
        r.data.shape[i]? = some ax.size ∧
        ax.name = axisName (t == "image") (dc.shape.length - 1 - i) ∧
        (AllPresent dc.attrs (t == "image") dc.shape.length "_scale" →
          attrValue dc.attrs (axisPrefix (t == "image") (dc.shape.length - 1 - i) ++ "_scale") =
            some ax.scale) ∧
        (¬ AllPresent dc.attrs (t == "image") dc.shape.length "_scale" → ax.scale = .num 1) ∧
        (AllPresent dc.attrs (t == "image") dc.shape.length "_origin" →
          attrValue dc.attrs (axisPrefix (t == "image") (dc.shape.length - 1 - i) ++ "_origin") =
            some ax.offset) ∧
        (¬ AllPresent dc.attrs (t == "image") dc.shape.length "_origin" → ax.offset = .num 0) ∧
        (AllPresent dc.attrs (t == "image") dc.shape.length "_units" →
          attrValue dc.attrs (axisPrefix (t == "image") (dc.shape.length - 1 - i) ++ "_units") =
            some ax.units) ∧
        (¬ AllPresent dc.attrs (t == "image") dc.shape.length "_units" → ax.units = .str "") ∧
        (dc.shape.length = 3 → (ax.navigate = true ↔ i < if t == "image" then 1 else 2))) ∧
      (∀ name ∈ ["exposure", "binning", "readout_frequency", "ccd_height", "blanking", "gain",
        "pppc"], r.acquisition.lookup name = attrValue dc.attrs name) ∧
      (∀ name ∈ ["exposure", "title", "binning", "readout_frequency", "ccd_height", "blanking"],
        r.calibration.lookup name = attrValue dc.attrs name) ∧
      (∀ ax ∈ ["x", "y", "z", "energy"], ∀ q ∈ ["origin", "scale", "units"],
        r.calibration.lookup (ax ++ q) = attrValue dc.attrs (ax ++ "_" ++ q)) ∧
      (∀ name ∈ ["dark_current", "readout"], r.treatments.lookup name = dc.attrs.lookup name) := by
  obtain ⟨cal, c1, c2, _⟩ := collect_spec dc.attrs hne attrib2netcdf (by decide)
  obtain ⟨acq, a1, a2, _⟩ := collect_spec dc.attrs hne acquisition2netcdf (by decide)
  obtain ⟨axes, x1, x2, x3⟩ := axes_spec (t == "image") cal dc.shape.reverse dc.attrs c2
    (by simpa using h1) (by simpa using h3)
  rw [List.length_reverse] at x2 x3
  refine ⟨⟨⟨dc.shape.reverse, fun idx => dc.val idx.reverse⟩, axes, t, cal, acq,
    collectRaw dc.attrs treatments2netcdf⟩, ?_, rfl, fun _ => rfl, rfl, x2, x3, ?_, ?_, ?_, ?_⟩
  · unfold Verif.Netcdf.read
    rw [hv, hdc, ht]
    simp only [Bool.false_eq_true, if_false, if_true]
    rw [readVar, c1]
    simp only [bind, Except.bind]
    rw [a1]
    simp only []
    rw [x1]
    rfl
  · intro name hn
    apply a2
    revert hn
    revert name
    decide
  · intro name hn
    apply c2
    revert hn
    revert name
    decide
  · intro ax hax q hq
    apply c2
    revert hq
    revert q
    revert hax
    revert ax
    decide +kernel
  · intro name hn
    unfold collectRaw treatments2netcdf
    simp only [List.mem_cons, List.not_mem_nil, or_false] at hn
    rcases hn with rfl | rfl <;>
      cases h1 : dc.attrs.lookup "dark_current" <;> cases h2 : dc.attrs.lookup "readout" <;>
      simp [h1, h2, List.lookup]

/-- The attributes of a small spectrum image. -/
def sample : Var Nat :=
  ⟨[4, 3, 2], fun _ => 7, [("x_scale", .array [.num 5]), ("y_scale", .one (.num 6)),
    ("energy_scale", .one (.num (1 / 2))), ("energy_origin", .one (.num 100)),
    ("gain", .one (.num 2))]⟩

example : ∃ r, read (⟨some "EELSLab 0.1", some "spectrum", [("data_cube", sample)]⟩ : File Nat) false =
      .ok r ∧ r.axes = [⟨2, 0, "Y", .num 6, .num 0, .str "", true⟩,
        ⟨3, 1, "X", .num 5, .num 0, .str "", true⟩,
        ⟨4, 2, "Energy", .num (1 / 2), .num 0, .str "", false⟩] :=
  ⟨_, rfl, by decide +kernel⟩

private theorem mapM_all {β γ : Type} {f : β → Py γ} : ∀ {l : List β} {r : List γ},
    l.mapM f = .ok r → ∀ a ∈ l, ∃ b, f a = .ok b
  | [], _, _, a, ha => by cases ha
  | x :: l, r, h, a, ha => by
    rw [List.mapM_cons] at h
    cases hx : f x with
    | error e => rw [hx] at h; cases h
    | ok y =>
      rw [hx] at h
      cases hm : l.mapM f with
      | error e => rw [hm] at h; cases h
      | ok ys =>
        rcases List.mem_cons.1 ha with e | e
        · rw [e]; exact ⟨y, hx⟩
        · exact mapM_all hm a e

/-- Lazy loading, files of other programs, and data of more than three dimensions are rejected. -/
theorem C100_rejects {α : Type} (f : File α) :
    read f true = .error .notImplemented ∧
    (f.version ≠ some "EELSLab 0.1" → read f false = .error .ioError) ∧
    (∀ dc, f.version = some "EELSLab 0.1" → f.vars.lookup "data_cube" = some dc →
      3 < dc.shape.length → ∀ r, read f false ≠ .ok r) := by
  refine ⟨rfl, fun h => by unfold Verif.Netcdf.read; rw [if_neg (by simp), if_neg h], ?_⟩
  intro dc hv hdc h3 r hr
  unfold Verif.Netcdf.read at hr
  rw [hv, hdc] at hr
  simp only [Bool.false_eq_true, if_false, if_true] at hr
  rw [readVar] at hr
  simp only [bind, Except.bind] at hr
  split at hr
  · cases hr
  split at hr
  · cases hr
  split at hr
  · cases hr
  split at hr
  · cases hr
  rename_i axes hax
  unfold axesOf at hax
  dsimp only at hax
  obtain ⟨ax, h⟩ := mapM_all hax 3 (by simpa using h3)
  rw [axisAt] at h
  split at h
  · rename_i hn
    unfold keysOf at hn
    split at hn <;> simp at hn
  · cases h

/-- A single image (type `image`, two dimensions): its Y axis becomes a navigation axis. -/
theorem C100_fails_image : ∃ r, read (⟨some "EELSLab 0.1", some "image",
    [("data_cube", ⟨[4, 3], fun _ => 7, []⟩)]⟩ : File Nat) false = .ok r ∧
    r.axes.map (fun a => (a.name, a.navigate)) = [("Y", true), ("X", false)] :=
  ⟨_, rfl, by decide +kernel⟩

/-- A single spectrum: its energy axis becomes a navigation axis, as does that of a line of
spectra. -/
theorem C100_fails_spectrum : (∃ r, read (⟨some "EELSLab 0.1", some "spectrum",
    [("data_cube", ⟨[4], fun _ => 7, []⟩)]⟩ : File Nat) false = .ok r ∧
    r.axes.map (fun a => (a.name, a.navigate)) = [("Energy", true)]) ∧
    ∃ r, read (⟨some "EELSLab 0.1", some "spectrum",
    [("data_cube", ⟨[4, 3], fun _ => 7, []⟩)]⟩ : File Nat) false = .ok r ∧
    r.axes.map (fun a => (a.name, a.navigate)) = [("X", true), ("Energy", true)] :=
  ⟨⟨_, rfl, by decide +kernel⟩, _, rfl, by decide +kernel⟩

/-- Without the attribute `y_scale`, the scales of the other axes are lost, too. -/
theorem C100_fails_missing : ∃ r, read (⟨some "EELSLab 0.1", some "spectrum",
    [("data_cube", ⟨[4, 3, 2], fun _ => 7, [("energy_scale", .one (.num (1 / 2)))]⟩)]⟩ : File Nat)
      false = .ok r ∧ r.axes.map Axis.scale = [.num 1, .num 1, .num 1] :=
  ⟨_, rfl, by decide +kernel⟩

end Verif.Props.Netcdf
