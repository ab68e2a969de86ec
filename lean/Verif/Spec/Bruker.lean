import Verif.Model.Bruker
/-!
What Bruker files hold, independently of the reader: base64 as in RFC 4648, pictures as planes of numbers, and
what maps and spectra are to be.
-/
namespace Verif.Bruker

/-- The character of a number below 64, as in RFC 4648: capitals, small letters, digits, `+` and `/`. -/
def sixChar (n : Nat) : Char :=
  if n < 26 then Char.ofNat (65 + n) else if n < 52 then Char.ofNat (71 + n) else if n < 62 then Char.ofNat (n - 4)
  else if n = 62 then '+' else '/'

/-- Base64 of RFC 4648. -/
def encode : List UInt8 → List Char
  | [] => []
  | [a] => [sixChar (a.toNat / 4), sixChar (a.toNat % 4 * 16), '=', '=']
  | [a, b] => [sixChar (a.toNat / 4), sixChar (a.toNat % 4 * 16 + b.toNat / 16), sixChar (b.toNat % 16 * 4), '=']
  | a :: b :: c :: r => sixChar (a.toNat / 4) :: sixChar (a.toNat % 4 * 16 + b.toNat / 16) ::
      sixChar (b.toNat % 16 * 4 + c.toNat / 64) :: sixChar (c.toNat % 64) :: encode r

/-- A character of base64. -/
def isBase (c : Char) : Bool := decide (c ∈ (List.range 64).map sixChar ∨ c = '=')

/-- The text of a plane is the base64 of its pixels, row by row, in numbers of `w` bytes; there may be line breaks and
other characters in between. -/
def PlaneHolds (n : ImageNode) (p : Plane) (vs : List Nat) : Prop :=
  0 < n.itemSize ∧ vs.length = n.height * n.width ∧ (∀ v ∈ vs, v < 256 ^ n.itemSize) ∧
  p.data.filter isBase = encode (vs.flatMap (leBytes n.itemSize))

/-- The pictures of an image node: those of its planes that are not blank. -/
def picturesOf (h : Header) (filename : Text) (n : ImageNode) (planes : List (Plane × List Nat)) : List Picture :=
  (planes.filter fun p => p.2.any (· != 0)).map fun p =>
    { height := n.height, width := n.width, values := p.2, title := p.1.description
      scaleY := h.dy.getD 1, scaleX := h.dx.getD 1
      units := if h.dx.isSome then "µm".toList else "pix".toList, filename := filename }

/-- Number of blocks of `d` that cover `n`. -/
def Blocks (n d k : Nat) : Prop := n ≤ k * d ∧ ∀ j, j < k → j * d < n

/-- The map of an index as a signal. `n` is the number of channels. -/
def IsMap {β : Type} (parse : Nat → List Nat → Nat → Py β) (h : Header) (img : ImageNode) (s : Spectrum)
    (instrument : Option Text) (filename : Text) (ds : Nat) (i n : Nat) (m : MapSignal β) : Prop :=
  ∃ rows cols, Blocks img.height ds rows ∧ Blocks img.width ds cols ∧ parse i [rows, cols, n] ds = .ok m.data ∧
  (∃ y x e, m.axes = [y, x, e] ∧
    y.name = "height".toList ∧ y.size = rows ∧ y.scale = h.dy.getD 1 * ds ∧ y.offset = 0 ∧ y.navigate = true ∧
    x.name = "width".toList ∧ x.size = cols ∧ x.scale = h.dx.getD 1 * ds ∧ x.offset = 0 ∧ x.navigate = true ∧
    (h.dx.isSome → y.units = "µm".toList ∧ x.units = "µm".toList) ∧
    (h.dx = none → y.units = "pix".toList ∧ x.units = "pix".toList) ∧
    e.name = "Energy".toList ∧ e.size = n ∧ e.scale = s.scale ∧ e.offset = s.offset ∧ e.units = "keV".toList ∧
    e.navigate = false) ∧
  (∀ t, instrument = some t → m.mode = t) ∧
  (∀ v, instrument = none → h.hv = some v → (30 < v → m.mode = "TEM".toList) ∧ (v ≤ 30 → m.mode = "SEM".toList)) ∧
  m.signalType = "EDS_".toList ++ m.mode ∧
  (∀ v, s.hv = some v → m.beamEnergy = some v) ∧ (s.hv = none → m.beamEnergy = h.hv) ∧ m.magnification = h.mag ∧
  m.detector.elevation = s.elevation ∧ m.detector.type = s.detectorType ∧ m.detector.azimuth = s.azimuth ∧
  m.detector.realTime =
    some (h.lineCounter.sum * h.lineAverage * h.pixelAverage * h.pixelTime * img.width / 1000000) ∧
  (∀ r l, s.realTime = some r → s.lifeTime = some l → m.detector.liveTime = some (l / 1000)) ∧
  m.filename = filename ∧ m.date = h.date ∧ m.time = h.time ∧ (∀ t, h.name = some t → m.sample = t) ∧
  (h.name = none → m.sample = "Undefined".toList)

/-- The channel of an energy: no other is nearer. -/
def Nearest (s : Spectrum) (e : Rat) (n : Int) : Prop := ∀ k : Int, |s.offset + n * s.scale - e| ≤ |s.offset + k * s.scale - e|

/-- The number of channels for a cut-off. -/
def ChannelsFor (h : Header) (s : Spectrum) (n : Int) : Cutoff → Prop
  | .none => n = s.data.length
  | .at e => Nearest s e n
  | .zealous => (∃ v, v ≠ 0 ∧ ∃ k : Nat, n = k + 1 ∧ s.data[k]? = some v) ∧
      ∀ (j : Nat) v, n ≤ j → s.data[j]? = some v → v = 0
  | .auto => (∀ v, h.hv = some v → 0 < v → v < s.amplification / 1000 → Nearest s v n) ∧
      (h.hv = Option.none → n = s.data.length) ∧
      (∀ v, h.hv = some v → (v ≤ 0 ∨ s.amplification / 1000 ≤ v) → n = s.data.length)

/-- The maps that are to be read: the first one, all, or a given one. -/
def Chosen (available : List Nat) : Index → List Nat → Prop
  | .none, is => ∃ i, is = [i] ∧ i ∈ available ∧ ∀ j ∈ available, i ≤ j
  | .all, is => is = available
  | .at i, is => is = [i] ∧ i ∈ available

/-- Names of entries of the database: those of maps have their number, below ten. -/
def entryName : Nat ⊕ Text → Text
  | .inl k => "SpectrumData".toList ++ decChars k
  | .inr t => t

/-- Such an entry. -/
def IsEntry : Nat ⊕ Text → Prop
  | .inl k => k < 10
  | .inr t => ¬ "SpectrumData".toList <:+: t

/-- The numbers of the maps. -/
def mapNumbers (es : List (Nat ⊕ Text)) : List Nat := es.filterMap fun e => match e with
  | .inl k => some k
  | .inr _ => none

/-- The family of an X-ray line as `Ka`, `La`, `Lb`, ...: `K` alone is the first of the series. -/
def family : Text → Text
  | [] => []
  | [c] => [c.toUpper, 'a']
  | c :: d :: _ => [c.toUpper, d.toLower]

/-- `a` before `b` in the order of the code points. -/
def Before (a b : Text) : Prop := a.map Char.toNat ≤ b.map Char.toNat

/-- The image node of the map: the last one without a name. -/
def IsMain (h : Header) (n : ImageNode) : Prop :=
  ∃ a name b, h.images = a ++ (name, n) :: b ∧ (name = none ∨ name = some []) ∧
    ∀ e ∈ b, ∃ t, e.1 = some t ∧ t ≠ []

/-- The text is a number of at most `w` digits. -/
def Writes (w : Nat) (t : Text) (n : Nat) : Prop := t ≠ [] ∧ t.length ≤ w ∧ (∀ c ∈ t, isDigit c = true) ∧ decVal t = n

/-- A valid date and time. -/
def ValidStamp (y m d hh mm ss : Nat) : Prop :=
  1 ≤ y ∧ 1 ≤ m ∧ m ≤ 12 ∧ 1 ≤ d ∧ hh < 24 ∧ mm < 60 ∧ ss < 60 ∧
  (m ∈ [1, 3, 5, 7, 8, 10, 12] → d ≤ 31) ∧ (m ∈ [4, 6, 9, 11] → d ≤ 30) ∧
  (m = 2 → d ≤ if (y % 4 = 0 ∧ y % 100 ≠ 0) ∨ y % 400 = 0 then 29 else 28)

end Verif.Bruker
