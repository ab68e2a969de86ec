import Verif.Model.Delmic
/-!
What a Delmic file says, independent of how it is read: which objects are acquisitions, of which type, where the pixels lie,
and what a signal must show of them.
-/
namespace Verif.Delmic.Spec
open Verif Verif.Delmic

/-- An acquisition with what is known about it. -/
structure Rec where
  acq : Acq
  kind : Kind
  title : Text
  polarization : Option Text
  time : ℚ

/-- A valid entry of `PhysicalData`. -/
def Entry (a : Acq) (k : Text) (v : V) : Prop :=
  ∃ n ns, (k, (⟨true, .list (n :: ns), some v⟩ : Item)) ∈ a.physical ∧ n ≠ 111

/-- Length of the dimension with a label, one if there is none. -/
def extent (a : Acq) (label : Text) : Nat := ((a.labels.zip a.shape).lookup label).getD 1

/-- The type of an acquisition, from its dimensions, its description and the position of the mirror. -/
def HasKind (a : Acq) (k : Kind) : Prop :=
  ∃ d, Entry a "ChannelDescription".toList (.str d) ∧
    if k = .anchor then d = "Anchor region".toList
    else d ≠ "Anchor region".toList ∧
      match k with
      | .ek1 => 1 < extent a ['A'] ∧ 1 < extent a ['C']
      | .tempSpec => extent a ['A'] = 1 ∧ 1 < extent a ['T'] ∧ 1 < extent a ['C']
      | .temporal => extent a ['A'] = 1 ∧ 1 < extent a ['T'] ∧ extent a ['C'] = 1
      | .spectrum => extent a ['A'] = 1 ∧ extent a ['T'] = 1 ∧ 1 < extent a ['C']
      | .unknown => (1 < extent a ['A'] ∧ extent a ['C'] = 1) ∨
          (extent a ['A'] = 1 ∧ extent a ['T'] = 1 ∧ extent a ['C'] = 1 ∧
            (∀ l, ¬ Entry a "PolePosition".toList (.list l)) ∧
            d ∉ ["Secondary electrons concurrent".toList, "Secondary electrons survey".toList, "CL intensity".toList])
      | k => extent a ['A'] = 1 ∧ extent a ['T'] = 1 ∧ extent a ['C'] = 1 ∧
          if k = .ar then ∃ l, Entry a "PolePosition".toList (.list l)
          else (∀ l, ¬ Entry a "PolePosition".toList (.list l)) ∧
            (k, d) ∈ [(Kind.se, "Secondary electrons concurrent".toList), (Kind.survey, "Secondary electrons survey".toList),
              (Kind.pmt, "CL intensity".toList)]

/-- A complete acquisition: five dimensions with different labels, and everything a reader needs. -/
structure Sound (r : Rec) : Prop where
  dataset : r.acq.isDataset = true
  labels : r.acq.labels.length = 5
  distinct : r.acq.labels.Nodup
  names : ∀ t ∈ ["Wavelength".toList, "Time".toList, "Angle".toList], t ∉ r.acq.labels
  shape : r.acq.shape.length = 5
  positive : 0 ∉ r.acq.shape
  data : r.acq.data.length = r.acq.shape.prod
  image : (r.acq.image.map Prod.fst).Nodup
  physical : (r.acq.physical.map Prod.fst).Nodup
  states : ∀ e ∈ r.acq.physical, e.2.dataset = true → e.1 ≠ "Title".toList → ∃ n ns, e.2.state = .list (n :: ns)
  title : r.acq.title = some (some r.title) ∨ (r.acq.title = some none ∧ r.title = "__unnamed__".toList)
  kind : HasKind r.acq r.kind
  time : ("TOffset".toList, [r.time]) ∈ r.acq.image
  polarization : match r.polarization with
    | some p => Entry r.acq "Polarization".toList (.str p)
    | none => ∀ v, ¬ Entry r.acq "Polarization".toList v

/-- An acquisition that lacks something: it has no data, not five dimensions, no title, no time, or no description. -/
inductive Spoiled (a : Acq) : Prop
  | dataset (h : a.isDataset = false)
  | dims (h : a.shape.length ≠ 5)
  | title (h : a.title = none)
  | time (h : ∀ l, ("TOffset".toList, l) ∉ a.image)
  | description (h : ∀ i, ("ChannelDescription".toList, i) ∉ a.physical)

/-- An object that is no acquisition. -/
def Other (o : Obj) : Prop := o.group = false ∨ ¬ ("Acquisition".toList <+: o.name) ∨ o.acq = none

/-- The complete acquisitions of a file, in the order of the file; the rest is something else, or spoiled. -/
inductive Holds : List Obj → List Rec → Prop
  | nil : Holds [] []
  | other {o os rs} (h : Other o) (t : Holds os rs) : Holds (o :: os) rs
  | spoiled {o os rs a} (e : o.acq = some a) (h : Spoiled a) (t : Holds os rs) : Holds (o :: os) rs
  | take {o os rs r} (g : o.group = true) (n : "Acquisition".toList <+: o.name) (e : o.acq = some r.acq) (h : Sound r)
      (t : Holds os rs) : Holds (o :: os) (r :: rs)

/-- What a user can ask for. -/
def Asks (signal : Text) (k : Kind) : Prop :=
  signal = "all".toList ∨ (signal = "cl".toList ∧ k ∈ [Kind.pmt, .ar, .ek1, .tempSpec, .temporal, .spectrum]) ∨
    (signal, k) ∈ [("survey".toList, Kind.survey), ("se".toList, .se), ("anchor".toList, .anchor)]

/-- The words a user can use. -/
def Word (signal : Text) : Prop :=
  signal ∈ ["all".toList, "cl".toList, "survey".toList, "se".toList, "anchor".toList]

/-- The documented order of the types. -/
def typeOrder : List Kind := [.pmt, .ar, .ek1, .tempSpec, .temporal, .spectrum, .se, .anchor, .unknown, .survey]

/-- The name of a dimension. -/
def nameOf (label : Text) : Text :=
  ([(['C'], "Wavelength".toList), (['T'], "Time".toList), (['A'], "Angle".toList)].lookup label).getD label

/-- The order of the known dimensions. -/
def axisOrder : List Text := ["Z".toList, "Y".toList, "X".toList, "Time".toList, "Angle".toList, "Wavelength".toList]

/-- A unit of length or time, and its size. -/
def InUnit (base : Char) (units : Text) (u : ℚ) : Prop :=
  (units, u) ∈ [(['f', base], 1 / 10 ^ 15), (['p', base], 1 / 10 ^ 12), (['n', base], 1 / 10 ^ 9), (['µ', base], 1 / 10 ^ 6),
    (['m', base], 1 / 10 ^ 3), ([base], (1 : ℚ))]

/-- A number is shown between one and a thousand, if there is a prefix for it. -/
def Handy (q shown : ℚ) : Prop := 1 / 10 ^ 15 ≤ |q| → |q| < 1 → 1 ≤ |shown| ∧ |shown| < 1000

/-- Positions that are listed in the file, in metres or seconds. -/
def ShowsList (a : Acq) (key : Text) (base : Char) (c : Cal) : Prop :=
  (∀ l, (key, l) ∈ a.image → ∃ shown units u, c = .values shown units ∧ InUnit base units u ∧ shown.map (· * u) = l ∧
    Handy (l.sum / l.length) (l.sum / l.length / u)) ∧
  ((∀ l, (key, l) ∉ a.image) → c = .none)

/-- Pixels of one size around a centre; `up`: the first pixel has the largest coordinate. -/
def ShowsLine (a : Acq) (key center : Text) (up : Bool) (n : Nat) (c : Cal) : Prop :=
  (∀ px m, (key, [px]) ∈ a.image → (center, [m]) ∈ a.image → ∃ off step units u, c = .line n off step units ∧ InUnit 'm' units u ∧
    (∀ i : Nat, (off + i * step) * u = m + (if up then -1 else 1) * ((i - ((n : ℚ) - 1) / 2) * px)) ∧ Handy px step) ∧
  ((∀ l, (key, l) ∉ a.image) → c = .none)

/-- The axis of a dimension. -/
def ShowsAxis (a : Acq) (label : Text) (n : Nat) (x : Axis) : Prop :=
  x.name = nameOf label ∧
  (label = ['C'] → ShowsList a "DimensionScaleC".toList 'm' x.cal) ∧
  (label = ['T'] → ShowsList a "DimensionScaleT".toList 's' x.cal) ∧
  (label = ['A'] → ((∃ l, ("DimensionScaleA".toList, l) ∈ a.image) → x.cal = .values ((List.range n).map Nat.cast) []) ∧
    ((∀ l, ("DimensionScaleA".toList, l) ∉ a.image) → x.cal = .none)) ∧
  (label = ['Z'] → ShowsLine a "DimensionScaleZ".toList "ZOffset".toList false n x.cal) ∧
  (label = ['Y'] → ShowsLine a "DimensionScaleY".toList "YOffset".toList true n x.cal) ∧
  (label = ['X'] → ShowsLine a "DimensionScaleX".toList "XOffset".toList false n x.cal) ∧
  (label ∉ [['C'], ['T'], ['A'], ['Z'], ['Y'], ['X']] → x.cal = .none)

/-- The dimensions that are longer than one. -/
def long (a : Acq) : List Text := (((a.labels.zip a.shape).filter fun d => d.2 ≠ 1).map Prod.fst).map nameOf

/-- A signal shows an acquisition: the same values at the same places. -/
structure Shows (r : Rec) (s : Sig) : Prop where
  kind : s.kind = r.kind
  /-- Known dimensions in their order, then the others as in the file. -/
  names : s.axes.map Axis.name = axisOrder.filter (· ∈ long r.acq) ++ (long r.acq).filter (· ∉ axisOrder)
  axes : ∀ x ∈ s.axes, ∃ d ∈ r.acq.labels.zip r.acq.shape, ShowsAxis r.acq d.1 d.2 x
  shape : List.Forall₂ (fun x n => ∃ l, (l, n) ∈ r.acq.labels.zip r.acq.shape ∧ x = nameOf l) (s.axes.map Axis.name) s.shape
  total : s.data.length = s.shape.prod
  values : ∀ place : Text → Nat, (∀ d ∈ r.acq.labels.zip r.acq.shape, place (nameOf d.1) < d.2) →
    s.data[flatIndex s.shape (s.axes.map fun x => place x.name)]? = r.acq.data[flatIndex r.acq.shape (r.acq.labels.map fun l => place (nameOf l))]?

/-- How many of the acquisitions were made before this one. -/
def before (l : List Rec) (r : Rec) : Nat := (l.filter fun r' => r'.time < r.time).length

/-- Angle-resolved images that fill the scan of the SEM image: one for each of its pixels, all of one size. -/
def Fills (l : List Rec) (se : Rec) (y x b a : Nat) : Prop :=
  se.acq.shape.drop 3 = [y, x] ∧ y * x = l.length ∧ ∀ r ∈ l, r.acq.shape = [1, 1, 1, b, a]

/-- A signal shows a scan of angle-resolved images, in the order of time, line by line. -/
structure ShowsScan (l : List Rec) (se : Rec) (y x b a : Nat) (s : Sig) : Prop where
  kind : s.kind = .ar
  names : (s.axes.map Axis.name).zip s.shape =
    [("Y".toList, y), ("X".toList, x), ("Angle B".toList, b), ("Angle A".toList, a)].filter fun d => d.2 ≠ 1
  same : s.axes.length = s.shape.length
  axes : ∀ z ∈ s.axes, ShowsAxis se.acq ['Y'] y z ∨ ShowsAxis se.acq ['X'] x z ∨
    z = ⟨"Angle B".toList, .values ((List.range b).map Nat.cast) []⟩ ∨ z = ⟨"Angle A".toList, .values ((List.range a).map Nat.cast) []⟩
  total : s.data.length = s.shape.prod
  values : ∀ r ∈ l, ∀ place : Text → Nat, place "Y".toList < y → place "X".toList < x → place "Angle B".toList < b →
    place "Angle A".toList < a → before l r = place "Y".toList * x + place "X".toList →
    s.data[flatIndex s.shape (s.axes.map fun z => place z.name)]? = r.acq.data[place "Angle B".toList * a + place "Angle A".toList]?

/-- The polarization, empty if there is none. -/
def pol (r : Rec) : Text := r.polarization.getD []

/-- What one polarization gives: a scan, or, if the images do not fill one, the images; `one` relates an image and its signal, `scan` a scan and its signal. -/
def Group (one : Rec → Sig → Prop) (scan : List Rec → Sig → Prop) (l : List Rec) (se : Rec) (out : List Sig) : Prop :=
  ((∃ y x b a, Fills l se y x b a) → ∃ s, out = [s] ∧ scan l s) ∧
  ((¬ ∃ y x b a, Fills l se y x b a) → List.Forall₂ one l out)

/-- All angle-resolved images, by polarization, in the order in which the polarizations appear. -/
def Groups (one : Rec → Sig → Prop) (scan : List Rec → Sig → Prop) (l : List Rec) (se : Rec) (out : List Sig) : Prop :=
  ∃ (ps : List Text) (outs : List (List Sig)), ps.Pairwise (fun p q => (l.map pol).idxOf p < (l.map pol).idxOf q) ∧
    (∀ p, p ∈ ps ↔ p ∈ l.map pol) ∧ out = outs.flatten ∧
    List.Forall₂ (fun p o => Group one scan (l.filter fun r => pol r = p) se o) ps outs

/-- The signals of a file: those asked for, type by type, in the order of the file; the last SEM image is the grid of the scans. -/
structure Result (one : Rec → Sig → Prop) (scan : List Rec → Rec → Sig → Prop) (signal : Text) (l : List Rec) (sigs : List Sig) : Prop where
  order : sigs.Pairwise fun s s' => typeOrder.idxOf s.kind ≤ typeOrder.idxOf s'.kind
  asked : ∀ k, Asks signal k → k ≠ .ar → List.Forall₂ one (l.filter fun r => r.kind = k) (sigs.filter fun s => s.kind = k)
  scans : Asks signal .ar → ∀ se, (l.filter fun r => r.kind = .se).getLast? = some se →
    Groups one (fun g => scan g se) (l.filter fun r => r.kind = .ar) se (sigs.filter fun s => s.kind = .ar)
  only : ∀ k, ¬ Asks signal k → sigs.filter (fun s => s.kind = k) = []
  none : (∀ r ∈ l, r.kind ≠ .ar) → sigs.filter (fun s => s.kind = .ar) = []

/-- SEM images whose last dimensions are Y and X; images of one polarization at different times. -/
structure Scannable (l : List Rec) : Prop where
  grid : ∀ r ∈ l, r.kind = .se → r.acq.labels.drop 3 = [['Y'], ['X']]
  times : ∀ p, ((l.filter fun r => r.kind = .ar ∧ pol r = p).map Rec.time).Nodup
  se : (∃ r ∈ l, r.kind = .ar) → ∃ r ∈ l, r.kind = .se

/-- The metadata of an acquisition. -/
structure ShowsMeta (utc : Utc) (r : Rec) (m : Meta) (om : List (Text × V)) : Prop where
  title : m.title = r.title
  signalType : m.signalType = ([(Kind.tempSpec, "LumiTransientSpectrum".toList), (.temporal, "LumiTransient".toList),
    (.spectrum, "CL_SEM".toList)].lookup r.kind).getD []
  polarization : m.polarization = r.polarization.map .str
  date : m.date = utc r.time
  time : getKw "AcquisitionDate".toList om = some (.num r.time)
  group : getKw "HDF5Group".toList om = some (.str r.acq.name)
  svi : ∃ d, getKw "SVIData".toList om = some (.dict d) ∧ ∀ k v, (k, v) ∈ d ↔ k ∈ ["Company".toList, "WriterVersion".toList] ∧
    ∃ t, v = .str t ∧ getKw k r.acq.svi = some t
  entries : ∀ k, k ∉ ["AcquisitionDate".toList, "HDF5Group".toList, "SVIData".toList, "Title".toList] →
    ∀ v, getKw k om = some v ↔ Entry r.acq k v
  noTitle : getKw "Title".toList om = .none

/-- The metadata of a signal; that of a scan is that of its first image. -/
def OneMeta (utc : Utc) (r : Rec) (s : Sig) : Prop := ShowsMeta utc r s.metadata s.original

def ScanMeta (utc : Utc) (l : List Rec) (s : Sig) : Prop := ∀ r ∈ l, before l r = 0 → ShowsMeta utc r s.metadata s.original

end Verif.Delmic.Spec
