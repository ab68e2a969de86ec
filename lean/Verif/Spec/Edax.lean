import Verif.Py.Bytes
import Verif.Py.Float32
import Verif.Py.Lines
/-!
EDAX files: numbers at the documented positions of a file, and the chemical symbols.
-/
namespace Verif.Edax

/-- The unsigned number in `w` bytes at a position. -/
def stored (big : Bool) (f : List UInt8) (pos w : Nat) : Nat :=
  let bs := (f.drop pos).take w
  if big then leVal bs.reverse else leVal bs

/-- The signed number in `w` bytes at a position. -/
def storedInt (big : Bool) (f : List UInt8) (pos w : Nat) : Int := toSigned w (stored big f pos w)

/-- The single-precision number at a position. -/
def storedFloat (big : Bool) (f : List UInt8) (pos : Nat) : Rat := f32Dec (stored big f pos 4)

/-- Symbols of the elements in the order of their atomic numbers, up to 111. -/
def symbols : List String := ["H", "He", "Li", "Be", "B", "C", "N", "O", "F", "Ne", "Na", "Mg", "Al", "Si", "P", "S", "Cl", "Ar", "K", "Ca", "Sc", "Ti", "V", "Cr", "Mn", "Fe", "Co", "Ni", "Cu", "Zn", "Ga",
  "Ge", "As", "Se", "Br", "Kr", "Rb", "Sr", "Y", "Zr", "Nb", "Mo", "Tc", "Ru", "Rh", "Pd", "Ag", "Cd", "In", "Sn", "Sb", "Te", "I", "Xe", "Cs", "Ba", "La", "Ce", "Pr", "Nd", "Pm", "Sm", "Eu", "Gd", "Tb", "Dy",
  "Ho", "Er", "Tm", "Yb", "Lu", "Hf", "Ta", "W", "Re", "Os", "Ir", "Pt", "Au", "Hg", "Tl", "Pb", "Bi", "Po", "At", "Rn", "Fr", "Ra", "Ac", "Th", "Pa", "U", "Np", "Pu", "Am", "Cm", "Bk", "Cf", "Es", "Fm", "Md",
  "No", "Lr", "Rf", "Db", "Sg", "Bh", "Hs", "Mt", "Ds", "Rg"]

/-- The symbol of an atomic number. -/
def symbol (z : Nat) : String := symbols.getD (z - 1) ""

/-- The elements of a spectrum: their number is at 638, their atomic numbers follow. The list is sorted. -/
def Elements (big : Bool) (f : List UInt8) (r : Option (List String)) : Prop :=
  if storedInt big f 638 2 ≤ 0 then r = none
  else ∃ l, r = some l ∧ l.Pairwise (fun a b => a ≤ b) ∧
    l.Perm ((List.range (min (storedInt big f 638 2).toNat 48)).map fun k => symbol (stored big f (640 + 2 * k) 2))

/-- All elements of the spectrum have an atomic number from 1 to 111. -/
def KnownElements (big : Bool) (f : List UInt8) : Prop :=
  ∀ k : Nat, (k : Int) < storedInt big f 638 2 → k < 48 → 1 ≤ stored big f (640 + 2 * k) 2 ∧ stored big f (640 + 2 * k) 2 ≤ 111

/-- The file is as long as the header that is going to be read. -/
def SpcComplete (big loadAll : Bool) (f : List UInt8) : Prop :=
  (loadAll = false ∧ 20740 ≤ f.length) ∨ (loadAll = true ∧ (20994 ≤ f.length ∨ (20736 ≤ f.length ∧ storedFloat big f 0 < 69 / 100)))

/-- The beginning of a path: none, the root, or a directory. -/
def IsFolder (pre : Text) : Prop := pre = [] ∨ pre = ['/'] ∨ ∃ d : Text, pre = d ++ ['/'] ∧ d ≠ [] ∧ d.getLast? ≠ some '/'

/-- An `.ipr` file is as long as its header. -/
def IprComplete (big : Bool) (f : List UInt8) : Prop := 264 ≤ f.length ∨ (252 ≤ f.length ∧ storedInt big f 0 2 < 334)

/-- A map of `ny` lines of `nx` pixels with `nz` channels of `w` bytes, which start at `off`. -/
structure SpdFile (big : Bool) (f : List UInt8) (ny nx nz w off : Nat) : Prop where
  head : 1068 ≤ f.length
  points : storedInt big f 24 4 = nx
  lines : stored big f 28 4 = ny
  channels : stored big f 32 4 = nz
  bytes : stored big f 36 4 = w
  start : stored big f 40 4 = off
  width : w = 1 ∨ w = 2 ∨ w = 4

/-- The cells of a line of a table: no separators inside, no spaces before. -/
def CleanRow (cells : List Text) : Prop := cells ≠ [] ∧ cells ≠ [[]] ∧ ∀ c ∈ cells, ',' ∉ c ∧ '\n' ∉ c ∧ '\r' ∉ c ∧ c.head? ≠ some ' '

/-- A table of distances: fourteen lines, the names of the columns, one of which is `Distance (nm)`, and the rows. -/
def DistanceTable (num : Text → Option Rat) (text : Text) (ds : List Rat) : Prop :=
  ∃ (hdr : List Text) (names : List Text) (rows : List (List Text)) (col : Nat), hdr.length = 14 ∧ text = linesText (hdr ++ (names :: rows).map (joinWith [','])) ∧
    (∀ l ∈ hdr, '\n' ∉ l ∧ '\r' ∉ l) ∧ (∀ r ∈ names :: rows, CleanRow r) ∧ (∀ j, names[j]? = some "Distance (nm)".toList ↔ j = col) ∧
    rows.map (fun r => (r[col]?).bind num) = ds.map some

end Verif.Edax
