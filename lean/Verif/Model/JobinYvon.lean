import Verif.Py.Assoc
import Verif.Py.IntLit
import Verif.Py.Ravel
import Verif.Model.RenishawData
/-!
Model of `rsciio/jobinyvon/_api.py` (Raman and luminescence spectra of LabSpec, `.xml`).

The elements below `LSX_Tree` and `LSX_Matrix` are given with their `ID` and text to the depth the
reader looks at. Numbers are exact rationals; `np.fromstring(text.strip(), sep=" ")` and `float(text)`
are external functions. The fit of a uniform axis is the exact straight line of least squares. Not
modelled: parsing XML, more than one `LSX_Tree` or `LSX_Matrix`, elements without `ID`, elements
without text, entries of the setup named `signal type` or `signal units`, messages.
-/
namespace Verif.JobinYvon
open Verif.Renishaw (fitAxis)

/-- An element without children of interest: attribute `ID` and text. -/
structure Leaf where
  id : Text
  text : Text

/-- An element with children. -/
structure Node where
  id : Text
  text : Text
  children : List Leaf

/-- An element of `LSX_Matrix`: attribute `Size` and text. -/
structure Row where
  size : Option Text
  text : Text

/-- What the reader looks at: the children of `LSX_Tree` by kind (lines 127-142, 286-293), and the rows. -/
structure File where
  date : Option (List Node)
  setup : Option (List Node)
  info : Option (List Node)
  title : Option Text
  kind : Option Text
  angle : Option Text
  axes : List Node
  rows : List Row

/-- The `ID`s of names, values and units (lines 179-183, 331-333, 352-356, 384, 418). -/
def idName : Text := "0x6D6D616E".toList
@[inherit_doc idName] def idOne : Text := "0x7D6C61DB".toList
@[inherit_doc idName] def idTwo : Text := "0x8736F70".toList
@[inherit_doc idName] def idType : Text := "0x6D707974".toList
@[inherit_doc idName] def idUnits : Text := "0x7C696E75".toList
@[inherit_doc idName] def idValues : Text := "0x7D6CD4DB".toList

/-! ### Axes -/

/-- Calibration of the signal axis: all values, or a straight line. -/
inductive Cal | values (l : List ℚ) | uniform (offset scale : ℚ) (size : Nat)

/-- The dictionary of the signal axis. -/
structure SigAxis where
  cal : Option Cal := none
  name : Option Text := none
  units : Option Text := none

/-- Lines 418-437: name and units of the signal axis. -/
def signalUnits (u : Text) : Py (Text × Text) :=
  if '/' ∈ u ∧ u.drop (u.length - 3) = "abs".toList then .ok ("Wavenumber".toList, u.take (u.length - 4))
  else if '/' ∈ u ∧ u.getLast? = some 'm' then .ok ("Raman Shift".toList, u)
  else if u.drop (u.length - 2) = "eV".toList then .ok ("Energy".toList, u)
  else if u.isEmpty then .error .indexError
  else .ok ("Wavelength".toList, u)

/-- Lines 384-417: the calibration, and whether the values were reversed. -/
def signalCal (uniform : Bool) (l : List ℚ) : Cal × Option Bool :=
  match l with
  | a :: b :: _ =>
    let l' := if a > b then l.reverse else l
    (if uniform then .uniform (fitAxis l').1 (fitAxis l').2 l'.length else .values l', some (decide (a > b)))
  | _ => (.values l, none)

/-- `_set_signal_axis`, lines 380-438: one child of the element. -/
def signalChild (nums : Text → List ℚ) (uniform : Bool) (st : SigAxis × Option Bool) (c : Leaf) :
    Py (SigAxis × Option Bool) :=
  if c.id = idValues then
    let r := signalCal uniform (nums c.text)
    .ok ({ st.1 with cal := some r.1 }, match r.2 with | some b => some b | none => st.2)
  else if c.id = idUnits then
    match signalUnits c.text with
    | .error e => .error e
    | .ok (n, u) => .ok ({ st.1 with name := some n, units := some u }, st.2)
  else .ok st

/-- The dictionary of a navigation axis. -/
structure NavAxis where
  name : Option Text := none
  units : Option Text := none
  offset : ℚ := 0
  scale : ℚ := 0
  size : Nat := 0

/-- `_set_nav_axis`, lines 350-365: one child; the state is the dictionary, `has_nav` and `nav_size`. -/
def navChild (nums : Text → List ℚ) (st : NavAxis × Bool × Option Nat) (c : Leaf) : NavAxis × Bool × Option Nat :=
  if c.id = idType then ({ st.1 with name := some c.text }, st.2)
  else if c.id = idUnits then ({ st.1 with units := some c.text }, st.2)
  else if c.id = idValues then
    match nums c.text with
    | a :: b :: l => ({ st.1 with scale := b - a, offset := a, size := l.length + 2 }, st.2.1, some (l.length + 2))
    | l => (st.1, false, some l.length)
  else st

/-- `_set_nav_axis`, lines 348-368: the axis unless it has fewer than two values, and the number of
values, which is unbound without values. -/
def navAxis (nums : Text → List ℚ) (cs : List Leaf) : Py (Option NavAxis × Nat) :=
  match cs.foldl (navChild nums) ({}, true, none) with
  | (_, _, none) => .error .nameError
  | (a, has, some n) => .ok (if has then some a else none, n)

/-- What `get_axes` sets. -/
structure Axes where
  quantity : Option Text := none
  quantityUnits : Option Text := none
  signal : Option SigAxis := none
  reverse : Option Bool := none
  nav1 : Option NavAxis := none
  nav2 : Option NavAxis := none
  has1 : Bool := false
  has2 : Bool := false
  size1 : Nat := 0
  size2 : Nat := 0

/-- `_set_signal_type`, lines 328-336: one child. -/
def typeChild (st : Axes) (c : Leaf) : Axes :=
  if c.id = idType then { st with quantity := some c.text }
  else if c.id = idUnits then { st with quantityUnits := some c.text }
  else st

/-- `get_axes`, lines 453-466: one child. -/
def axisChild (nums : Text → List ℚ) (uniform : Bool) (st : Axes) (c : Node) : Py Axes :=
  if c.id = "0x0".toList then .ok (c.children.foldl typeChild st)
  else if c.id = "0x1".toList then
    match c.children.foldlM (signalChild nums uniform) ({}, st.reverse) with
    | .error e => .error e
    | .ok (a, r) => .ok { st with signal := some a, reverse := r }
  else if c.id = "0x2".toList then
    match navAxis nums c.children with
    | .error e => .error e
    | .ok (a, n) => .ok { st with nav1 := a.or st.nav1, has1 := a.isSome, size1 := n }
  else if c.id = "0x3".toList then
    match navAxis nums c.children with
    | .error e => .error e
    | .ok (a, n) => .ok { st with nav2 := a.or st.nav2, has2 := a.isSome, size2 := n }
  else .ok st

/-- An axis of the result. -/
inductive Axis | nav (a : NavAxis) | signal (a : SigAxis)

/-- `_sort_nav_axes`, lines 440-451: the axes with `index_in_array`, sorted by it. -/
def sortAxes (st : Axes) : Py (List (Axis × Nat)) :=
  match st.signal with
  | none => .error .keyError
  | some s =>
    if (st.nav1.isSome && !st.has1) || (st.nav2.isSome && !st.has2) then .error .keyError
    else match st.nav2, st.nav1 with
      | some n2, some n1 => .ok [(.nav n2, 0), (.nav n1, 1), (.signal s, 2)]
      | some n2, none => .ok [(.nav n2, 0), (.signal s, 1)]
      | none, some n1 => .ok [(.nav n1, 0), (.signal s, 1)]
      | none, none => .ok [(.signal s, 0)]

/-! ### Data -/

/-- `self._reverse_signal` is missing when the signal axis has one value. -/
def orient (reverse : Option Bool) (l : List ℚ) : Py (List ℚ) :=
  match reverse with
  | none => .error .attributeError
  | some b => .ok (if b then l.reverse else l)

/-- `_get_size`, lines 98-100, and `np.empty`, lines 484-485. -/
def numCols (r : Row) : Py Nat :=
  match r.size with
  | none => .error .keyError
  | some t => match intLit t with
    | .error e => .error e
    | .ok (.ofNat n) => .ok n
    | .ok (.negSucc _) => .error .valueError

/-- Lines 487-490: one row of the data; a single number fills the row. -/
def rowData (nums : Text → List ℚ) (reverse : Option Bool) (n : Nat) (r : Row) : Py (List ℚ) :=
  match orient reverse (nums r.text) with
  | .error e => .error e
  | .ok l => if l.length = n then .ok l
    else match l with
      | [x] => .ok (List.replicate n x)
      | _ => .error .valueError

/-- `np.reshape`. -/
def reshape (shape : List Nat) (l : List ℚ) : Py (List Nat × List ℚ) :=
  if l.length = size shape then .ok (shape, l) else .error .valueError

/-- Lines 493-503: the shape of line scans and maps. -/
def shapeOf (st : Axes) (rows cols : Nat) : List Nat :=
  if st.has2 then (if st.has1 then [st.size2, st.size1, cols] else [st.size2, cols])
  else if st.has1 then [st.size1, cols] else [rows, cols]

/-- `get_data`, lines 470-503: shape and values in C order. -/
def getData (nums : Text → List ℚ) (st : Axes) : List Row → Py (List Nat × List ℚ)
  | [] => .error .attributeError
  | [r] => match orient st.reverse (nums r.text) with
    | .error e => .error e
    | .ok l => .ok ([l.length], l)
  | r :: s :: rows => match numCols r with
    | .error e => .error e
    | .ok n => match (r :: s :: rows).mapM (rowData nums st.reverse n) with
      | .error e => .error e
      | .ok ls => reshape (shapeOf st (rows.length + 2) n) ls.flatten

/-! ### Metadata -/

/-- Values in `original_metadata`: the dictionary of values `"1"` and `"2"`, texts, numbers. -/
inductive Val
  | vals (one two : Option Text)
  | str (t : Text)
  | num (q : ℚ)
  deriving DecidableEq

/-- Lines 177-184: the children of one entry; the state is `key`, `values["1"]` and `values["2"]`. -/
def entryChild (st : Option Text × Option Text × Option Text) (c : Leaf) : Option Text × Option Text × Option Text :=
  if c.id = idName then (some c.text, st.2)
  else if c.id = idOne then (st.1, some c.text, st.2.2)
  else if c.id = idTwo then (st.1, st.2.1, some c.text)
  else st

/-- `_get_metadata_values`, lines 175-186: one entry; `key` keeps its value between entries. -/
def entry (st : Option Text × List (Text × Val)) (c : Node) : Py (Option Text × List (Text × Val)) :=
  match c.children.foldl entryChild (st.1, none, none) with
  | (none, _, _) => .error .nameError
  | (some k, one, two) => .ok (some k, setKw k (.vals one two) st.2)

/-- `_get_metadata_values`, lines 149-186: all entries. -/
def getValues (cs : List Node) : Py (List (Text × Val)) :=
  match cs.foldlM entry (none, []) with
  | .error e => .error e
  | .ok (_, d) => .ok d

/-- Lines 196-216. -/
def convertToNumeric : List Text :=
  ["Acq. time (s)", "Accumulations", "Delay time (s)", "Binning", "Detector temperature (°C)", "Objective",
   "Grating", "ND Filter", "Laser (nm)", "Spectro (nm)", "Hole", "Laser Pol. (°)", "Raman Pol. (°)", "X (µm)",
   "Y (µm)", "Z (µm)", "Full time(s)", "rotation angle (rad)", "Windows"].map String.toList

/-- Lines 218-224. -/
def changeToSecondValue : List Text :=
  ["Objective", "Grating", "ND Filter", "Laser (nm)", "Spectro (nm)"].map String.toList

/-- Lines 226-233. -/
def second (d : List (Text × Val)) (k : Text) : Py (List (Text × Val)) :=
  match getKw k d with
  | none => .ok d
  | some (.vals _ (some t)) => .ok (setKw k (.str t) d)
  | some (.vals _ none) => .ok d
  | some _ => .error .typeError

/-- Lines 235-256: the first value of an entry that has any. -/
def firstVal : Text × Val → Py (Text × Val)
  | (k, .vals (some t) _) => .ok (k, .str t)
  | (_, .vals none (some _)) => .error .keyError
  | e => .ok e

/-- Lines 258-265. -/
def numeric (toFloat : Text → Py ℚ) (d : List (Text × Val)) (k : Text) : Py (List (Text × Val)) :=
  match getKw k d with
  | none => .ok d
  | some (.str t) => match toFloat t with
    | .error e => .error e
    | .ok q => .ok (setKw k (.num q) d)
  | some (.num q) => .ok (setKw k (.num q) d)
  | some (.vals _ _) => .error .typeError

/-- Lines 267-281: `d[new] = d.pop(old)`. -/
def rename (old new : Text) (d : List (Text × Val)) : List (Text × Val) :=
  match getKw old d with
  | none => d
  | some v => setKw new v (delKw old d)

/-- `original_metadata`: date, setup and information on the file. -/
structure Orig where
  date : List (Text × Val)
  setup : List (Text × Val)
  info : List (Text × Val)

/-- Lines 300-315: what is not an entry of its own. -/
def extra (f : File) (d : List (Text × Val)) : List (Text × Val) :=
  let d := match f.kind with | some t => setKw "measurement_type".toList (.str t) d | none => d
  let d := match f.title with | some t => setKw "title".toList (.str t) d | none => d
  match f.angle with | some t => setKw "rotation angle (rad)".toList (.str t) d | none => d

/-- `_clean_up_metadata`, lines 188-281. -/
def cleanUp (toFloat : Text → Py ℚ) (o : Orig) : Py Orig := do
  let setup ← changeToSecondValue.foldlM second o.setup
  let setup ← setup.mapM firstVal
  let date ← o.date.mapM firstVal
  let info ← o.info.mapM firstVal
  let setup ← convertToNumeric.foldlM (numeric toFloat) setup
  .ok ⟨date, rename "ND Filter".toList "ND Filter (%)".toList
    (rename "Grating".toList "Grating (gr/mm)".toList setup), info⟩

/-- A part of the metadata that may be missing: the variable is unbound. -/
def part (o : Option (List Node)) : Py (List Node) :=
  match o with
  | none => .error .nameError
  | some l => .ok l

/-- `get_original_metadata`, lines 283-316. -/
def getOriginal (toFloat : Text → Py ℚ) (f : File) : Py Orig := do
  let date ← getValues (← part f.date)
  let setup ← getValues (← part f.setup)
  let info ← getValues (← part f.info)
  cleanUp toFloat ⟨date, extra f setup, info⟩

/-- Values in `metadata`: those above, booleans, and radians converted to degrees. -/
inductive MVal
  | val (v : Val)
  | bool (b : Bool)
  | degrees (rad : ℚ)
  deriving DecidableEq

/-- Lines 546-623: where entries of the setup go. -/
def mapping : List (Text × Text) :=
  [("Laser.wavelength", "Laser (nm)"), ("Laser.objective_magnification", "Objective"),
   ("Laser.Polarizer.polarizer_type", "Laser. Pol."), ("Laser.Polarizer.angle", "Laser Pol. (°)"),
   ("Spectrometer.central_wavelength", "Spectro (nm)"), ("Spectrometer.model", "Instrument"),
   ("Spectrometer.Grating.groove_density", "Grating (gr/mm)"), ("Spectrometer.spectral_range", "Range"),
   ("Spectrometer.Polarizer.polarizer_type", "Raman. Pol."), ("Spectrometer.Polarizer.angle", "Raman Pol. (°)"),
   ("Detector.model", "Detector"), ("Detector.delay_time", "Delay time (s)"), ("Detector.binning", "Binning"),
   ("Detector.temperature", "Detector temperature (°C)"), ("Detector.exposure_per_frame", "Acq. time (s)"),
   ("Detector.frames", "Accumulations"), ("Detector.processing.autofocus", "Autofocus"),
   ("Detector.processing.swift", "SWIFT"), ("Detector.processing.auto_exposure", "AutoExposure"),
   ("Detector.processing.spike_filter", "Spike filter"), ("Detector.processing.de_noise", "DeNoise"),
   ("Detector.processing.ics_correction", "ICS correction"), ("Detector.processing.dark_correction", "Dark correction"),
   ("Detector.processing.inst_process", "Inst. Process")].map fun e => (e.1.toList, e.2.toList)

/-- `x /= 100`, lines 652-663: `None`, texts and dictionaries cannot be divided. -/
def hundredth : Option Val → Py ℚ
  | some (.num q) => .ok (q / 100)
  | _ => .error .typeError

/-- Lines 520-526. -/
def dateTime (date : List (Text × Val)) : Py (List (Text × MVal)) :=
  match getKw "Acquired".toList date with
  | none => .ok []
  | some (.str t) => match splitChar ' ' t with
    | [d, u] => .ok [("General.date".toList, .val (.str d)), ("General.time".toList, .val (.str u))]
    | _ => .error .valueError
  | some _ => .error .attributeError

/-- Lines 538-544. -/
def quantityText (kind units : Text) : Text :=
  (if kind = "Intens".toList then "Intensity".toList else kind) ++ " (".toList ++
  (if units = "Cnt/sec".toList then "Counts/s".toList else if units = "Cnt".toList then "Counts".toList else units) ++
  ")".toList

/-- An entry of the dictionary unless it is `None`, lines 41-46 and 677. -/
def present (path : Text) : Option Val → List (Text × MVal)
  | none => []
  | some v => [(path, .val v)]

/-- Lines 641-650: with numbers in both entries. -/
def integration (d : List (Text × Val)) : Py (List (Text × MVal)) :=
  match getKw "Accumulations".toList d, getKw "Acq. time (s)".toList d with
  | some (.num a), some (.num b) => .ok [("Detector.integration_time".toList, .val (.num (a * b)))]
  | some _, some _ => .error .typeError
  | _, _ => .ok []

/-- Lines 632-639. -/
def windows (d : List (Text × Val)) : List (Text × MVal) :=
  match getKw "Windows".toList d with
  | some v => [("Detector.glued_spectrum".toList, .bool true), ("Detector.glued_spectrum_windows".toList, .val v)]
  | none => [("Detector.glued_spectrum".toList, .bool false)]

/-- Lines 625-639. -/
def angleWindows (d : List (Text × Val)) : Py (List (Text × MVal)) :=
  match getKw "rotation angle (rad)".toList d with
  | none => .ok (windows d)
  | some (.num q) => .ok (("Spectral_image.rotation_angle".toList, .degrees q) ::
      ("Spectral_image.rotation_angle_units".toList, .val (.str "°".toList)) :: windows d)
  | some _ => .error .typeError

/-- `map_metadata`, lines 505-677, with dotted paths. -/
def mapMetadata (f : File) (st : Axes) (o : Orig) : Py (List (Text × MVal)) :=
  match f.title with
  | none => .error .attributeError
  | some title => do
    let dt ← dateTime o.date
    let quantity : List (Text × MVal) := match st.quantity, st.quantityUnits with
      | some k, some u => [("Signal.quantity".toList, .val (.str (quantityText k u)))]
      | _, _ => []
    let aw ← angleWindows o.setup
    let it ← integration o.setup
    let od ← hundredth (getKw "ND Filter (%)".toList o.setup)
    let slit ← hundredth (getKw "Hole".toList o.setup)
    .ok (present "Sample.description".toList (getKw "Sample".toList o.info) ++
      ("General.title".toList, .val (.str title)) ::
      present "General.notes".toList (getKw "Remark".toList o.info) ++ dt ++ quantity ++
      mapping.flatMap (fun e => present e.1 (getKw e.2 o.setup)) ++ aw ++ it ++
      [("Laser.Filter.optical_density".toList, .val (.num od)),
       ("Spectrometer.entrance_slit_width".toList, .val (.num slit)),
       ("Spectrometer.pinhole".toList, .val (.num slit))])

/-- The dictionary `file_reader` returns. -/
structure Result where
  axes : List (Axis × Nat)
  shape : List Nat
  data : List ℚ
  metadata : List (Text × MVal)

/-- `file_reader`, lines 683-715. -/
def read (nums : Text → List ℚ) (toFloat : Text → Py ℚ) (lazy uniform : Bool) (f : File) : Py Result :=
  if lazy then .error .notImplemented
  else do
    let o ← getOriginal toFloat f
    let st ← f.axes.foldlM (axisChild nums uniform) {}
    let axes ← sortAxes st
    let d ← getData nums st f.rows
    let md ← mapMetadata f st o
    .ok ⟨axes, d.1, d.2, md⟩

end Verif.JobinYvon
