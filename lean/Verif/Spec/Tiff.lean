import Verif.Model.Tiff
/-!
What a TIFF file says, for `Props/Tiff*.lean`. Of the model only the types of files and signals are used.
-/
namespace Verif.Spec.Tiff
open Verif Verif.Tiff

/-- The last tag of that name has this value. -/
def Tag (tags : List (Text × T)) (k : String) (v : T) : Prop :=
  ∃ a b, tags = a ++ (k.toList, v) :: b ∧ ∀ q ∈ b, q.1 ≠ k.toList

/-- There is no tag of that name. -/
def NoTag (tags : List (Text × T)) (k : String) : Prop := ∀ q ∈ tags, q.1 ≠ k.toList

/-- The tag, or the value that holds without it. -/
def TagOr (tags : List (Text × T)) (k : String) (d v : T) : Prop := Tag tags k v ∨ (NoTag tags k ∧ v = d)

/-- A dictionary whose keys are different has this entry. -/
def Entry (t : T) (k : String) (v : T) : Prop :=
  ∃ d, t = .dict d ∧ (k.toList, v) ∈ d ∧ (d.map Prod.fst).Nodup

/-- A dictionary without the key. -/
def NoEntry (t : T) (k : String) : Prop := ∃ d, t = .dict d ∧ ∀ q ∈ d, q.1 ≠ k.toList

/-- The number that a value stands for. -/
inductive Number (float : Text → Py ℚ) : T → ℚ → Prop
  | num (q : ℚ) : Number float (.num q) q
  | text {t : Text} {q : ℚ} (h : float t = .ok q) : Number float (.str t) q

/-- Scale, offset and units. -/
structure Cal where
  scale : T
  offset : T
  units : T

def plain : Cal := ⟨.num 1, .num 0, .null⟩

/-- A scale in some units. -/
def at0 (q : ℚ) (u : String) : Cal := ⟨.num q, .num 0, .str u.toList⟩

/-- The calibration of horizontal, vertical and other axes. -/
structure Cals where
  width : Cal
  height : Cal
  depth : Cal

/-- The length of a pixel: a resolution of `n / d` pixels per unit. -/
def Pixel (tags : List (Text × T)) (k : String) (s : ℚ) : Prop :=
  ∃ n d : ℚ, Tag tags k (.list [.num n, .num d]) ∧ n ≠ 0 ∧ s * n = d

/-- Horizontal and vertical length of a pixel. -/
def Pixels (tags : List (Text × T)) (x y : ℚ) : Prop := Pixel tags "XResolution" x ∧ Pixel tags "YResolution" y

/-! ### Kinds of files -/

/-- Reading the resolution was asked for, and there is one. -/
def Forced (p : Page) (force : Bool) : Prop :=
  force = true ∧ (∃ v, Tag p.tags "ResolutionUnit" v) ∧ ∃ v, Tag p.tags "XResolution" v

/-- Made by JEOL. -/
def Jeol (p : Page) : Prop := Tag p.tags "Make" (.str "JEOL Ltd.".toList)

/-- A streak image of Hamamatsu. -/
def Streak (p : Page) : Prop :=
  ∃ a s : Text, Tag p.tags "Artist" (.str ("Copyright Hamamatsu".toList ++ a)) ∧ Tag p.tags "Software" (.str ("HPD-TA".toList ++ s))

/-- Not a streak image, and nothing strange in the tags that tell. -/
def NotStreak (p : Page) : Prop :=
  NoTag p.tags "Artist" ∨
  ∃ a : Text, Tag p.tags "Artist" (.str a) ∧
    ((¬ ∃ r, a = "Copyright Hamamatsu".toList ++ r) ∨ NoTag p.tags "Software" ∨
      ∃ s : Text, Tag p.tags "Software" (.str s) ∧ ¬ ∃ r, s = "HPD-TA".toList ++ r)

/-- The programs whose calibration is read, in the order of precedence. -/
inductive Kind | fei | zeiss | tvips | sis | jeol | streak | usual

/-- The kind of a file. -/
def IsKind (f : Tiff) (p : Page) (force : Bool) : Kind → Prop
  | .fei => ¬ Forced p force ∧ f.fei = true
  | .zeiss => ¬ Forced p force ∧ f.fei = false ∧ f.sem = true
  | .tvips => ¬ Forced p force ∧ f.fei = false ∧ f.sem = false ∧ f.tvips = true
  | .sis => ¬ Forced p force ∧ f.fei = false ∧ f.sem = false ∧ f.tvips = false ∧ p.isSis = true
  | .jeol => ¬ Forced p force ∧ f.fei = false ∧ f.sem = false ∧ f.tvips = false ∧ p.isSis = false ∧ Jeol p
  | .streak => ¬ Forced p force ∧ f.fei = false ∧ f.sem = false ∧ f.tvips = false ∧ p.isSis = false ∧ ¬ Jeol p ∧ Streak p
  | .usual => ¬ Forced p force ∧ f.fei = false ∧ f.sem = false ∧ f.tvips = false ∧ p.isSis = false ∧ ¬ Jeol p ∧ NotStreak p

/-! ### Calibrations -/

/-- Both tags of FEI or one of them. -/
def FeiTag (p : Page) : Prop := (∃ v, Tag p.tags "FEI_HELIOS" v) ∨ ∃ v, Tag p.tags "FEI_SFEG" v

/-- A number two levels deep. -/
def Deep (float : Text → Py ℚ) (t : T) (a b : String) (q : ℚ) : Prop := ∃ u v, Entry t a u ∧ Entry u b v ∧ Number float v q

/-- Length of the unit of the resolution in metres. -/
def Metres (p : Page) (q : ℚ) : Prop :=
  (Tag p.tags "ResolutionUnit" (.num 2) ∧ q = 254 / 10000) ∨
  (∃ v, Tag p.tags "ResolutionUnit" v ∧ v ≠ .num 2 ∧ q = 1 / 100)

/-- A text entry. -/
def TextEntry (t : T) (k : String) (s : Text) : Prop := Entry t k (.str s)

/-- The report of JEOL in the description: its mode and its parts. -/
structure Report (env : Env) (p : Page) where
  description : T
  whole : T
  report : T
  eos : T
  mode : Text
  illumination : T
  imaging : T
  field : Text
  forming : Text
  selector : Text
  tag : Tag p.tags "ImageDescription" description
  parsed : env.jeolXml description = .ok whole
  isReport : Entry whole "TemReporter" report
  isEos : Entry report "Eos" eos
  isMode : TextEntry eos "EosMode" mode
  isIllumination : Entry report "IlluminationSystem" illumination
  isImaging : Entry report "ImageFormingSystem" imaging
  isField : TextEntry illumination "ImageField" field
  isForming : TextEntry imaging "ImageFormingMode" forming
  isSelector : TextEntry imaging "SelectorString" selector
  notScanning : mode ≠ "modeASID".toList

/-- The length of a camera in metres. -/
inductive CameraLength : Text → ℚ → ℚ → Prop
  | mm (q : ℚ) : CameraLength "mm".toList (1000 * q) q
  | cm (q : ℚ) : CameraLength "cm".toList (100 * q) q
  | m {t : Text} (q : ℚ) (h : t ≠ "mm".toList ∧ t ≠ "cm".toList) : CameraLength t q q

/-- The calibration that a file gives. -/
inductive Gives (env : Env) (f : Tiff) (p : Page) : Bool → Cals → Prop
  | inch {x y : ℚ} (h : Pixels p.tags x y) (u : Tag p.tags "ResolutionUnit" (.num 2)) :
      Gives env f p true ⟨at0 (x * 25400) "µm", at0 (y * 25400) "µm", plain⟩
  | centimetre {x y : ℚ} (h : Pixels p.tags x y) (u : Tag p.tags "ResolutionUnit" (.num 3)) :
      Gives env f p true ⟨at0 (x * 10000) "µm", at0 (y * 10000) "µm", plain⟩
  | noUnit {v : T} (h : Tag p.tags "XResolution" v) (u : Tag p.tags "ResolutionUnit" (.num 1)) :
      Gives env f p true ⟨plain, plain, plain⟩
  | otherUnit {x y : ℚ} {v : T} (h : Pixels p.tags x y) (u : Tag p.tags "ResolutionUnit" v) (o : ∀ n ∈ [1, 2, 3], v ≠ .num n) :
      Gives env f p true ⟨⟨.num x, .num 0, .null⟩, ⟨.num y, .num 0, .null⟩, plain⟩
  | feiScan {force : Bool} {q : ℚ} (k : IsKind f p force .fei) (t : FeiTag p)
      (hx : Deep env.float f.feiMetadata "Scan" "PixelWidth" q) (hy : Deep env.float f.feiMetadata "Scan" "PixelHeight" q) :
      Gives env f p force ⟨at0 q "m", at0 q "m", plain⟩
  | feiBeam {force : Bool} {w h x y q : ℚ} (k : IsKind f p force .fei) (t : FeiTag p) (n : NoEntry f.feiMetadata "Scan")
      (hw : Deep env.float f.feiMetadata "IRBeam" "HFW" w) (hh : Deep env.float f.feiMetadata "IRBeam" "VFW" h)
      (hx : Deep env.float f.feiMetadata "Image" "ResolutionX" x) (hy : Deep env.float f.feiMetadata "Image" "ResolutionY" y)
      (nx : x ≠ 0) (ny : y ≠ 0) (ex : q * x = w) (ey : q * y = h) :
      Gives env f p force ⟨at0 q "m", at0 q "m", plain⟩
  | zeiss {force : Bool} {t : T} {l : List T} {v q : ℚ} {first : Page} {rest : List Page} {n : Nat} (k : IsKind f p force .zeiss)
      (ht : Tag p.tags "CZ_SEM" t) (hl : Entry t "" (.list l)) (hv : l[3]? = some (.num v))
      (hp : f.pages = first :: rest) (hn : first.shape[1]? = some n) (n0 : n ≠ 0) (e : q * n = v * 1024) :
      Gives env f p force ⟨at0 q "m", at0 q "m", plain⟩
  | tvipsSize {force : Bool} {t v : T} (k : IsKind f p force .tvips) (ht : Tag p.tags "TVIPS" t)
      (hx : Entry t "PixelSizeX" v) (hy : Entry t "PixelSizeY" v) :
      Gives env f p force ⟨⟨v, .num 0, .str "nm".toList⟩, ⟨v, .num 0, .str "nm".toList⟩, plain⟩
  | tvipsResolution {force : Bool} {t : T} {x y : ℚ} (k : IsKind f p force .tvips) (ht : Tag p.tags "TVIPS" t)
      (n : NoEntry t "PixelSizeX" ∨ NoEntry t "PixelSizeY") (h : Pixels p.tags x y) :
      Gives env f p force ⟨at0 (x / 100) "m", at0 (y / 100) "m", plain⟩
  | sis {force : Bool} {t x y : T} {r q : ℚ} (k : IsKind f p force .sis)
      (ht : p.sis = [(33560, t)] ∨ p.sis = [(33471, t)])
      (hx : Entry t "pixelsizex" x) (hy : Entry t "pixelsizey" y) (nx : Number env.float x r) (ny : Number env.float y r)
      (e : env.round15 r = q) :
      Gives env f p force ⟨at0 q "m", at0 q "m", plain⟩
  | jeolImage {force : Bool} {m x y mag : ℚ} {v : T} (k : IsKind f p force .jeol) (r : Report env p) (tem : r.mode = "eosTEM".toList)
      (mode : TextEntry r.imaging "ModeString" "MAG".toList) (hm : Metres p m) (h : Pixels p.tags x y)
      (sel : Entry r.imaging "SelectorValue" v) (num : Number env.float v mag) (m0 : mag ≠ 0) :
      Gives env f p force ⟨at0 (x * m / mag * 1000000000) "nm", at0 (y * m / mag * 1000000000) "nm", ⟨.num 1, .num 0, .str "nm".toList⟩⟩
  | jeolDiffraction {force : Bool} {m x y s l ht : ℚ} {v : T} {u : Text} (k : IsKind f p force .jeol) (r : Report env p)
      (tem : r.mode = "eosTEM".toList) (mode : TextEntry r.imaging "ModeString" "DIFF".toList) (hm : Metres p m) (h : Pixels p.tags x y)
      (sel : Entry r.imaging "SelectorValue" v) (num : Number env.float v s) (unit : TextEntry r.imaging "SelectorUnitString" u)
      (len : CameraLength u s l) (volt : Deep env.float r.report "ElectronGun" "AccelerationVoltage" ht)
      (n0 : l * env.wave ht * 1000000000 ≠ 0) :
      Gives env f p force ⟨at0 (x * (m / (l * env.wave ht * 1000000000))) "1 / nm", at0 (y * (m / (l * env.wave ht * 1000000000))) "1 / nm", plain⟩
  | jeolScanning {force : Bool} {v : T} (k : IsKind f p force .jeol) (r : Report env p) (stem : r.mode ≠ "eosTEM".toList)
      (u : Tag p.tags "ResolutionUnit" v) : Gives env f p force ⟨plain, plain, plain⟩
  | micrograph {force : Bool} {w h d : Cal} (k : IsKind f p force .usual) (n : f.imagej = false)
      (uw : TagOr p.tags "65003" .null w.units) (uh : TagOr p.tags "65004" .null h.units) (ud : TagOr p.tags "65005" .null d.units)
      (ow : TagOr p.tags "65006" (.num 0) w.offset) (oh : TagOr p.tags "65007" (.num 0) h.offset) (od : TagOr p.tags "65008" (.num 0) d.offset)
      (sw : TagOr p.tags "65009" (.num 1) w.scale) (sh : TagOr p.tags "65010" (.num 1) h.scale) (sd : TagOr p.tags "65011" (.num 1) d.scale) :
      Gives env f p force ⟨w, h, d⟩
  | imagej {force : Bool} {w h d : Cal} {version unit : T} {x y : ℚ} (k : IsKind f p force .usual) (i : f.imagej = true)
      (vers : Entry (.dict f.imagejMetadata) "ImageJ" version) (hu : Entry (.dict f.imagejMetadata) "unit" unit) (px : Pixels p.tags x y)
      (uw : (unit = .str "micron".toList ∧ w.units = .str "µm".toList) ∨ (unit ≠ .str "micron".toList ∧ TagOr p.tags "65003" .null w.units))
      (uh : (unit = .str "micron".toList ∧ h.units = .str "µm".toList) ∨ (unit ≠ .str "micron".toList ∧ TagOr p.tags "65004" .null h.units))
      (ud : TagOr p.tags "65005" .null d.units)
      (ow : TagOr p.tags "65006" (.num 0) w.offset) (oh : TagOr p.tags "65007" (.num 0) h.offset) (od : TagOr p.tags "65008" (.num 0) d.offset)
      (sw : w.scale = .num x) (sh : h.scale = .num y)
      (sd : Entry (.dict f.imagejMetadata) "spacing" d.scale ∨
        (NoEntry (.dict f.imagejMetadata) "spacing" ∧ TagOr p.tags "65011" (.num 1) d.scale)) :
      Gives env f p force ⟨w, h, d⟩
  | imagejNoUnit {force : Bool} {w h d : Cal} {version : T} (k : IsKind f p force .usual) (i : f.imagej = true)
      (vers : Entry (.dict f.imagejMetadata) "ImageJ" version) (hu : NoEntry (.dict f.imagejMetadata) "unit")
      (uw : TagOr p.tags "65003" .null w.units) (uh : TagOr p.tags "65004" .null h.units) (ud : TagOr p.tags "65005" .null d.units)
      (ow : TagOr p.tags "65006" (.num 0) w.offset) (oh : TagOr p.tags "65007" (.num 0) h.offset) (od : TagOr p.tags "65008" (.num 0) d.offset)
      (sw : TagOr p.tags "65009" (.num 1) w.scale) (sh : TagOr p.tags "65010" (.num 1) h.scale)
      (sd : Entry (.dict f.imagejMetadata) "spacing" d.scale ∨
        (NoEntry (.dict f.imagejMetadata) "spacing" ∧ TagOr p.tags "65011" (.num 1) d.scale)) :
      Gives env f p force ⟨w, h, d⟩

/-- A resolution is missing, or there are no pixels in the unit. -/
def NoPixels (tags : List (Text × T)) : Prop :=
  NoTag tags "YResolution" ∨ NoTag tags "XResolution" ∨
  ∃ d : T, Tag tags "YResolution" (.list [.num 0, d]) ∨ Tag tags "XResolution" (.list [.num 0, d])

/-! ### Axes -/

/-- What the letters of `tifffile` mean. -/
def letter : Char → Option Text
  | 'X' => some "width".toList
  | 'Y' => some "height".toList
  | 'S' => some "sample".toList
  | 'P' => some "plane".toList
  | 'I' => some "image series".toList
  | 'Z' => some "depth".toList
  | 'C' => some "color|em-wavelength|channel".toList
  | 'E' => some "ex-wavelength|lambda".toList
  | 'T' => some "time".toList
  | 'R' => some "region|tile".toList
  | 'A' => some "angle".toList
  | 'F' => some "phase".toList
  | 'H' => some "lifetime".toList
  | 'L' => some "exposure".toList
  | 'V' => some "event".toList
  | _ => none

/-- The calibration of the axis with a letter. -/
def calOf (c : Char) (l : Cals) : Cal :=
  if c = 'X' then l.width else if c = 'Y' then l.height else if c = 'Z' ∨ c = 'I' ∨ c = 'T' then l.depth else plain

/-- The axes for letters and lengths: names, calibrations, and navigation for all but the last two. -/
def Shows (letters : Text) (shape : List Nat) (l : Cals) (axes : List Ax) : Prop :=
  axes.length = shape.length ∧
  ∀ (i : Nat) (c : Char) (n : Nat), letters[i]? = some c → shape[i]? = some n →
    ∃ name, (∀ t, letter c = some t → name = t) ∧
      axes[i]? = some (.lin n name (calOf c l).scale (calOf c l).offset (calOf c l).units (some (decide (i + 2 < shape.length))))

/-- The letters and lengths without those of the colours. -/
def frame (h : Handle) : Text × List Nat := if h.page.rgb then (h.axes.dropLast, h.shape.dropLast) else (h.axes, h.shape)

/-! ### Metadata -/

/-- Keys of the original metadata that do not keep the value of their tag. -/
def changed : List String := ["fei_metadata", "FEI_HELIOS", "FEI_SFEG", "Olympus_SIS_metadata", "ImageDescription", "SightX_Notes", "ImageDescriptionParsed"]

/-- A date of JEOL: the date, a letter, the time with microseconds, one more digit, and the zone. -/
def JeolDate (t d h z : Text) : Prop := ∃ a b, t = d ++ a :: h ++ b :: z ∧ d.length = 10 ∧ h.length = 15 ∧ z.length = 6

/-- The table for a page. -/
inductive TableFor (p : Page) : Mapping → Prop
  | fei (h : p.isFei = true) : TableFor p .fei
  | zeiss (h1 : p.isFei = false) (h : p.isSem = true) : TableFor p .zeiss
  | tvips (h1 : p.isFei = false) (h2 : p.isSem = false) (h : p.isTvips = true) {t v : T} (ht : Tag p.tags "TVIPS" t)
      (hv : Entry t "TemMode" v) : v ≠ .num 3 → TableFor p (.tvips false)
  | tvipsDiffraction (h1 : p.isFei = false) (h2 : p.isSem = false) (h : p.isTvips = true) {t : T} (ht : Tag p.tags "TVIPS" t)
      (hv : Entry t "TemMode" (.num 3)) : TableFor p (.tvips true)
  | tvipsNoMode (h1 : p.isFei = false) (h2 : p.isSem = false) (h : p.isTvips = true) {t : T} (ht : Tag p.tags "TVIPS" t)
      (hv : NoEntry t "TemMode") : TableFor p (.tvips false)
  | sis (h1 : p.isFei = false) (h2 : p.isSem = false) (h3 : p.isTvips = false) (h : p.isSis = true) : TableFor p .sis
  | nothing (h1 : p.isFei = false) (h2 : p.isSem = false) (h3 : p.isTvips = false) (h : p.isSis = false) (hj : ¬ Jeol p) : TableFor p .none

/-! ### Writing -/

/-- A text within a line, without blanks at its ends. -/
def Line (t : Text) : Prop :=
  '\n' ∉ t ∧ '=' ∉ t ∧ (∀ c, t.head? = some c → isSpace c = false) ∧ (∀ c, t.getLast? = some c → isSpace c = false)

/-- `tifffile` keeps the ratio of a resolution and the numbers and texts of the description. -/
structure Faithful (lib : Lib) (show_ : ℚ → Text) : Prop where
  ratio : ∀ a b : Int, 0 < a → 0 < b → (lib.ratio (a, b)).1 ≠ 0 ∧ (lib.ratio (a, b)).2 * a = (lib.ratio (a, b)).1 * b
  micron : lib.literal "micron".toList = .str "micron".toList
  angstrom : lib.literal "angstrom".toList = .str "angstrom".toList
  number : ∀ q, Line (show_ q) ∧ (∀ c ∈ show_ q, c.toNat < 128) ∧ lib.literal (show_ q) = .num q

/-- Units that can be written: in Latin-1, and `tifffile` keeps them. -/
def UnitOk (lib : Lib) (a : WAxis) : Prop :=
  (∀ c ∈ a.units.getD [], c.toNat < 256) ∧ lib.decode (a.units.getD []) = .str (a.units.getD [])

/-- Units for the description: micrometres, ångströms, or a text of seven bits that is not taken for something else. -/
def Described (lib : Lib) (u : Text) : Prop :=
  u = "µm".toList ∨ u = ['Å'] ∨ (Line u ∧ (∀ c ∈ u, c.toNat < 128) ∧ lib.literal u = .str u ∧ u ≠ "micron".toList)

/-- The shape of an array of numbers or of pixels. -/
def shapeOf : Rgb.Array' → List Nat
  | .reg a => a.shape
  | .rgb a => a.shape

/-- Arrays that are consistent. -/
def Sound : Rgb.Array' → Prop
  | .reg _ => True
  | .rgb a => a.px.length = a.shape.prod ∧ ∀ p ∈ a.px, p.length = if a.alpha then 4 else 3

/-- An axis that was read for one that was written; the scale may be smaller by less than `tol`. -/
def Back (tol : ℚ) (n : Nat) (name : String) (nav : Bool) (a : WAxis) (r : Ax) : Prop :=
  ∃ q, r = .lin n name.toList (.num q) (.num a.offset) (.str (a.units.getD [])) (some nav) ∧ q ≤ a.scale ∧ a.scale - q ≤ tol

/-! ### Hamamatsu -/

/-- An entry of a row of the description: the value may be in quotes, and then there may be more after a comma. -/
structure Item where
  key : Text
  value : Text
  quoted : Bool
  more : Option Text

def Item.text (i : Item) : Text :=
  i.key ++ '=' :: if i.quoted then '"' :: i.value ++ (match i.more with | none => [] | some t => ',' :: t) ++ ['"'] else i.value

/-- A text without the signs that have a meaning. -/
def Plain (t : Text) : Prop := ∀ c ∈ t, c ≠ ',' ∧ c ≠ '=' ∧ c ≠ '"' ∧ c ≠ '\n' ∧ c ≠ '\r'

structure Item.Ok (i : Item) : Prop where
  key : Plain i.key
  value : Plain i.value
  more : ∀ t, i.more = some t → i.quoted = true ∧ t ≠ [] ∧ t.getLast? ≠ some ',' ∧ ∀ c ∈ t, c ≠ '=' ∧ c ≠ '"' ∧ c ≠ '\n' ∧ c ≠ '\r'

/-- A row of the description: a name in brackets and entries, separated by commas. -/
structure Row where
  name : Text
  items : List Item

def Row.text (r : Row) : Text := joinWith [','] (('[' :: r.name ++ [']']) :: r.items.map Item.text)

structure Row.Ok (r : Row) : Prop where
  name : Plain r.name
  first : ∀ c, r.name.head? = some c → c ≠ ' ' ∧ c ≠ '[' ∧ c ≠ ']'
  last : ∀ c, r.name.getLast? = some c → c ≠ ' ' ∧ c ≠ '[' ∧ c ≠ ']'
  items : ∀ i ∈ r.items, i.Ok
  keys : (r.items.map Item.key).Nodup

/-- The description: the rows, one in a line. -/
structure Rows (rows : List Row) (t : Text) : Prop where
  text : ∃ eol ∈ ["\n".toList, "\r\n".toList], ∃ e ∈ [[], eol], t = joinWith eol (rows.map Row.text) ++ e
  ok : ∀ r ∈ rows, r.Ok
  names : (rows.map Row.name).Nodup
  some : rows ≠ []

/-- The first number in a text. -/
def Address (t : Text) (n : Nat) : Prop :=
  ∃ pre ds rest, t = pre ++ ds ++ rest ∧ (∀ c ∈ pre, c.isDigit = false) ∧ ds ≠ [] ∧ (∀ c ∈ ds, c.isDigit = true) ∧
    (∀ c, rest.head? = some c → c.isDigit = false) ∧ n = ds.foldl (fun n c => 10 * n + (c.toNat - 48)) 0

/-- The values of an axis: pixels, or numbers that are stored in the file. -/
inductive Values (f : Tiff) (special : String) (t : Text) (n : Nat) : List ℚ → Prop
  | pixels (r : Text) (h : t = special.toList ++ r) : Values f special t n ((List.range n).map fun i : Nat => (i : ℚ))
  | stored (h : ¬ ∃ r, t = special.toList ++ r) {a : Nat} (ha : Address t a) : Values f special t n (f.floats a n)

/-- What the row of the scaling says. -/
structure Scaling (f : Tiff) (p : Page) (rows : List Row) (nx ny : Nat) (x y : List ℚ) (xu yu : Text) : Prop where
  row : ∃ r ∈ rows, r.name = "Scaling".toList ∧ ∃ i ∈ r.items, ∃ j ∈ r.items, ∃ k ∈ r.items, ∃ l ∈ r.items,
    i.key = "ScalingXScalingFile".toList ∧ Values f "Other" i.value nx x ∧
    j.key = "ScalingYScalingFile".toList ∧ Values f "Focus mode" j.value ny y ∧
    k.key = "ScalingXUnit".toList ∧ k.value = xu ∧ l.key = "ScalingYUnit".toList ∧ l.value = yu
  width : Tag p.tags "ImageWidth" (.num nx)
  height : Tag p.tags "ImageLength" (.num ny)

/-- The height of a streak image, for the kinds of axes. -/
inductive Height (polyfit : Nat → List ℚ → List ℚ) (n : Nat) (u : Text) (y : List ℚ) : StreakType → Ax → Prop
  | unset {a b : ℚ} (h : polyfit 1 y = [a, b]) : Height polyfit n u y .none (.lin n "height".toList (.num a) (.num b) (.str u) none)
  | uniform {a b : ℚ} (h : polyfit 1 y = [a, b]) : Height polyfit n u y .uniform (.lin n "height".toList (.num a) (.num b) (.str u) none)
  | data : Height polyfit n u y .data (.data "height".toList (.str u) y)
  | functional {a b c d : ℚ} (h : polyfit 3 y = [a, b, c, d]) :
      Height polyfit n u y .functional (.poly "height".toList (.str u) y.length [a, b, c, d])

/-- `polyfit` finds lines: equidistant values give step and start. -/
def Fits (polyfit : Nat → List ℚ → List ℚ) : Prop :=
  ∀ (n : Nat) (a b : ℚ), 2 ≤ n → polyfit 1 ((List.range n).map fun i : Nat => b + i * a) = [a, b]

end Verif.Spec.Tiff
