import Verif.Py.Basic
import Verif.Py.Text
import Verif.Py.Dec
import Verif.Py.Assoc
/-!
Model of the handling of Direct Electron files and of the axes in `rsciio/mrc/_api.py`.

File names are base names (all files are in one directory). Conversion of text to numbers is a
parameter. Scan position files, and the binary header itself, are left out.
-/
namespace Verif.Mrc

/-! ### Names of related files -/

/-- Texts ordered as Python orders strings. -/
def textLe : Text → Text → Bool
  | [], _ => true
  | _ :: _, [] => false
  | a :: s, b :: t => if a = b then textLe s t else a.toNat < b.toNat

def insertText (x : Text) : List Text → List Text
  | [] => [x]
  | y :: ys => if textLe x y then x :: y :: ys else y :: insertText x ys

/-- `sorted(paths)`. -/
def sortTexts : List Text → List Text
  | [] => []
  | x :: xs => insertText x (sortTexts xs)

def joinUnderscore : List Text → Text
  | [] => []
  | [p] => p
  | p :: q :: ps => p ++ '_' :: joinUnderscore (q :: ps)

def allDigits (s : Text) : Bool := !s.isEmpty && s.all isDigit

/-- `f"{x}_{count}"`. -/
def numbered (x : Text) (count : Nat) : Text := x ++ '_' :: decChars count

/-- The `while` loop of lines 110-112; `fuel` bounds the number of steps, the loop ends before by
`freshCount_not_mem`. -/
def freshCount (seen : List (Text × Nat)) (x : Text) : Nat → Nat → Nat
  | 0, count => count
  | fuel + 1, count =>
    if numbered x count ∈ seen.map Prod.fst then freshCount seen x fuel (count + 1) else count

/-- `_dedupe`, lines 101-117. -/
def dedupeFrom (seen : List (Text × Nat)) : List Text → List Text
  | [] => []
  | x :: xs =>
    match getKw x seen with
    | none => x :: dedupeFrom (setKw x 1 seen) xs
    | some count =>
      let c := freshCount seen x (seen.length + 1) count
      numbered x c :: dedupeFrom (setKw (numbered x c) 1 (setKw x (c + 1) seen)) xs

def dedupe (xs : List Text) : List Text := dedupeFrom [] xs

/-- `name[:-4]` if the name ends with `.mrc`. -/
def mrcStem (s : Text) : Option Text :=
  if ['.', 'm', 'r', 'c'] <:+ s then some (s.take (s.length - 4)) else none

/-- `\d+|virt\d+`, line 63. -/
def isVirtNum (s : Text) : Bool :=
  allDigits s || (['v', 'i', 'r', 't'].isPrefixOf s && allDigits (s.drop 4))

/-- The end of `VIRTUAL_RE`, lines 63-65, on the parts between underscores:
number, name, calculation type (which may contain underscores but no dot). -/
def virtualTail : List Text → Option Text
  | num :: name :: kind :: rest =>
    if isVirtNum num && !name.isEmpty && !(joinUnderscore (kind :: rest)).isEmpty &&
      !(joinUnderscore (kind :: rest)).contains '.' then some name else none
  | _ => none

/-- The optional suffix of line 62, shortest first; `acc` is the suffix so far. -/
def virtualSearch (acc : List Text) : List Text → Option Text
  | [] => none
  | p :: ps =>
    let acc := acc ++ [p]
    match (if (joinUnderscore acc).isEmpty then none else virtualTail ps) with
    | some name => some name
    | none => virtualSearch acc ps

/-- The group `name` of `VIRTUAL_RE.fullmatch`, lines 59-66: first with, then without suffix. -/
def virtualName (s : Text) : Option Text :=
  match mrcStem s with
  | none => none
  | some stem =>
    match splitChar '_' stem with
    | ts :: acq :: ps =>
      if allDigits ts && ts.length = 8 && allDigits acq then
        match virtualSearch [] ps with
        | some name => some name
        | none => virtualTail ps
      else none
    | _ => none

/-- The end of `ext_re`, lines 137-139: `ext<num>` and perhaps a name. -/
def extTail : List Text → Option Text
  | ext :: rest =>
    if ['e', 'x', 't'].isPrefixOf ext && allDigits (ext.drop 3) then
      match rest with
      | [] => some ext
      | _ => if (joinUnderscore rest).isEmpty || (joinUnderscore rest).contains '.' then none
        else some (joinUnderscore rest)
    else none
  | [] => none

def extSearch (acc : List Text) : List Text → Option Text
  | [] => none
  | p :: ps =>
    let acc := acc ++ [p]
    match (if (joinUnderscore acc).isEmpty then none else extTail ps) with
    | some name => some name
    | none => extSearch acc ps

/-- The name of an external image, lines 136-149, for a file that has the timestamp and number of the
movie. -/
def externalName (s : Text) : Option Text :=
  match mrcStem s with
  | none => none
  | some stem =>
    match splitChar '_' stem with
    | _ :: _ :: ps =>
      match extSearch [] ps with
      | some name => some name
      | none => extTail ps
    | _ => none

def isMovie (s : Text) : Bool := ['_', 'm', 'o', 'v', 'i', 'e', '.', 'm', 'r', 'c'] <:+ s

/-- The files with a name, in the order of the directory listing, lines 124-132 and 140-149. -/
def matches' (name : Text → Option Text) (listing : List Text) : List (Text × Text) :=
  listing.filterMap fun f => (name f).map fun n => (f, n)

/-- What `find_related_de_files` returns, lines 161-168, from the listing of the `.mrc` files with the
timestamp and number of the movie in the order of `glob`. -/
structure Related where
  virtualImages : List Text
  virtualNames : List Text
  externalImages : List Text
  externalNames : List Text
  deriving Repr, DecidableEq

def related (listing : List Text) : Related :=
  let v := matches' virtualName (listing.filter fun f => !isMovie f)
  let e := matches' externalName listing
  ⟨sortTexts (v.map Prod.fst), dedupe (v.map Prod.snd),
    sortTexts (e.map Prod.fst), dedupe (e.map Prod.snd)⟩

/-- The navigators of `file_reader`, lines 541-575: image `i` is stored under name `i`, later ones
replace earlier ones of the same name. -/
def navigators (r : Related) : List (Text × Text) :=
  ((r.virtualNames.zip r.virtualImages) ++ (r.externalNames.zip r.externalImages)).foldl
    (fun d p => setKw p.1 p.2 d) []

/-! ### Axes of Direct Electron files -/

/-- Conversion of texts to numbers, and the numbers used by name. -/
structure Floats (α : Type) where
  parse : Text → Option α
  one : α
  two : α
  minusOne : α
  /-- `1 / (frame_time * frame_sum)` -/
  perFrame : α → α → α
  /-- Text of a number in a NumPy array of texts. -/
  text : α → Text

/-- A scale: a number, or a text where NumPy makes an array of texts. -/
inductive Scale (α : Type)
  | num (a : α)
  | text (s : Text)
  deriving Repr, DecidableEq

structure Axis (α : Type) where
  name : Text
  size : Int
  scale : Scale α
  deriving Repr, DecidableEq

abbrev Meta := List (Text × Text)

def kTime : Text := ['S', 'c', 'a', 'n', ' ', '-', ' ', 'T', 'i', 'm', 'e']
def kDelay : Text := ['S', 'c', 'a', 'n', ' ', '-', ' ', 'D', 'e', 'l', 'a', 'y']
def kSpecY : Text := ['S', 'p', 'e', 'c', ' ', 'Y']
def kSpecX : Text := ['S', 'p', 'e', 'c', ' ', 'X']
def kDiffY : Text := ['D', 'i', 'f', 'f', ' ', 'Y']
def kDiffX : Text := ['D', 'i', 'f', 'f', ' ', 'X']
def kFps : Text := ['F', 'P', 'S']
def kSum : Text := ['S', 'u', 'm']

/-- `float(original_metadata.get(key, 1))`. The keys are abbreviated. -/
def getFloat {α : Type} (F : Floats α) (md : Meta) (k : Text) : Py α :=
  match getKw k md with
  | none => .ok F.one
  | some t => match F.parse t with
    | some a => .ok a
    | none => .error .valueError

/-- The scale of time, lines 356-359: the sum of two texts is their concatenation, of a text and 1
an error. -/
def timeScale {α : Type} (F : Floats α) (md : Meta) : Py α :=
  match getKw kTime md, getKw kDelay md with
  | none, none => .ok F.two
  | some a, some b => match F.parse (a ++ b) with
    | some x => .ok x
    | none => .error .valueError
  | _, _ => .error .typeError

/-- The six scales of a scan, lines 353-368. Line 368, `axes_scales[axes_scales != -1] = 1`. -/
def scanScales {α : Type} [DecidableEq α] (F : Floats α) (md : Meta) : Py (List α) := do
  let t ← timeScale F md
  let sy ← getFloat F md kSpecY
  let sx ← getFloat F md kSpecX
  let dy ← getFloat F md kDiffY
  let dx ← getFloat F md kDiffX
  .ok ([t, sy, sx, F.one, dy, dx].map fun s => if s ≠ F.minusOne then F.one else s)

/-- Lines 428-442: axes longer than one, with -1 replaced by 1. -/
def makeAxes {α : Type} [DecidableEq α] (F : Floats α) (names : List Text) (sizes : List Int)
    (scales : List (Scale α)) : List (Axis α) :=
  ((names.zip (sizes.zip scales)).filter fun e => e.2.1 ≠ 1).map fun e =>
    ⟨e.1, e.2.1, if e.2.2 = .num F.minusOne then .num F.one else e.2.2⟩

def scanNames : List Text :=
  [['t', 'i', 'm', 'e'], ['y'], ['x'], ['r', 'e', 'p', 'e', 'a', 't', 's'], ['k', 'y'], ['k', 'x']]

/-- The axes of a scan, lines 350-399 and 428-442, with the sizes already found. -/
def scanAxes {α : Type} [DecidableEq α] (F : Floats α) (md : Meta) (time sizey sizex ky kx : Int) :
    Py (List (Axis α)) := do
  let scales ← scanScales F md
  .ok (makeAxes F scanNames [time, sizey, sizex, 1, ky, kx] (scales.map .num))

/-- The scales of a movie, lines 404-427: an array of texts as soon as one of the pixel sizes is
given. -/
def movieScales {α : Type} (F : Floats α) (md : Meta) (diffracting : Bool) : Py (List (Scale α)) := do
  let sum ← getFloat F md kSum
  let fps ← getFloat F md kFps
  let sec := F.perFrame fps sum
  let ky := if diffracting then kDiffY else kSpecY
  let kx := if diffracting then kDiffX else kSpecX
  match getKw ky md, getKw kx md with
  | none, none => .ok [.num sec, .num F.one, .num F.one]
  | y, x => .ok [.text (F.text sec), .text (y.getD ['1']), .text (x.getD ['1'])]

def movieNames (diffracting : Bool) : List Text :=
  if diffracting then [['t', 'i', 'm', 'e'], ['k', 'y'], ['k', 'x']]
  else [['t', 'i', 'm', 'e'], ['y'], ['x']]

/-- The axes of a movie, sizes -1 (taken from the .mrc file later). -/
def movieAxes {α : Type} [DecidableEq α] (F : Floats α) (md : Meta) (diffracting : Bool) :
    Py (List (Axis α)) := do
  let scales ← movieScales F md diffracting
  .ok (makeAxes F (movieNames diffracting) [-1, -1, -1] scales)

/-- Lines 695-698: sizes taken from the file, as far as both lists go. -/
def updateSizes {α : Type} : List (Axis α) → List Nat → List (Axis α)
  | a :: as, n :: ns => { a with size := n } :: updateSizes as ns
  | as, _ => as

/-! ### Axes of other files -/

/-- The shape of the returned array, lines 603-618: dimensions of length one are removed. -/
def dataShape (shape : List Nat) : List Nat := shape.filter (· ≠ 1)

/-- Lines 668-693: axis `i` gets entry `i + nav_axis_to_add + 3 - dim` of the scales; `scales` has one
entry per dimension of the file. -/
def fileAxes {σ : Type} (scales : List σ) (shape : List Nat) : List (Nat × Option σ) :=
  let ds := dataShape shape
  (List.range ds.length).map fun i => (ds.getD i 0, scales[i + scales.length - ds.length]?)

end Verif.Mrc
