import Verif.Py.Text
import Verif.Py.Assoc
/-!
Model of `rsciio/msa/_api.py`.

Floats are an abstract type `F` with the conversions `float(text)` and `str(x)` given as
parameters. The numbers of the data section are left out: the parser never changes a header
parameter there, and the data lines of the writer are a parameter (`body`). Also left out:
conversion of dates and times to ISO format and the derived entries `Signal.signal_type` and
`Signal.quantity` of the metadata.
-/
namespace Verif.Msa

/-- Values of header keywords. -/
inductive Val (F : Type) where
  | str (s : Text)
  | num (x : F)
  | none
  deriving Repr, DecidableEq

/-- An entry of the global table `keywords`, lines 61-160: is the type `float` (or `str`), and the
place in the metadata. -/
structure Kw where
  isFloat : Bool
  mapped : Option Text
  deriving Repr, DecidableEq

abbrev Table := List (Text × Kw)

def kTITLE : Text := ['T', 'I', 'T', 'L', 'E']
def kCOMMENT : Text := ['C', 'O', 'M', 'M', 'E', 'N', 'T']
def kSPECTRUM : Text := ['S', 'P', 'E', 'C', 'T', 'R', 'U', 'M']
def kENDOFDATA : Text := ['E', 'N', 'D', 'O', 'F', 'D', 'A', 'T', 'A']
def kFORMAT : Text := ['F', 'O', 'R', 'M', 'A', 'T']
def kVERSION : Text := ['V', 'E', 'R', 'S', 'I', 'O', 'N']
def kDATATYPE : Text := ['D', 'A', 'T', 'A', 'T', 'Y', 'P', 'E']
def kSIGNALTYPE : Text := ['S', 'I', 'G', 'N', 'A', 'L', 'T', 'Y', 'P', 'E']
/-- `"EMSA/MAS Spectral Data File"`. -/
def formatText : Text :=
  ['E', 'M', 'S', 'A', '/', 'M', 'A', 'S', ' ', 'S', 'p', 'e', 'c', 't', 'r', 'a', 'l', ' ',
    'D', 'a', 't', 'a', ' ', 'F', 'i', 'l', 'e']
/-- `"Spectral Data Starts Here"`. -/
def startsHere : Text :=
  ['S', 'p', 'e', 'c', 't', 'r', 'a', 'l', ' ', 'D', 'a', 't', 'a', ' ', 'S', 't', 'a', 'r', 't',
    's', ' ', 'H', 'e', 'r', 'e']

/-! ### Reading -/

abbrev Params := List (Text × Option Text)

/-- One header line beginning with `#`, lines 190-197. -/
def parseLine (line : Text) : Text × Option Text :=
  let (key, value) := match splitPair ':' ' ' line with
    | [k, v] => (k, some (rstripBy isSpace v))
    | _ => (line, none)
  (stripBy isSpace (stripBy (· = '#') key), value)

/-- The header part of the loop, lines 187-207; stops at the `SPECTRUM` line. `line[0]` of an empty
line does not occur: the lines of a file end with a newline. -/
def parseHeader : List Text → Params → Py Params
  | [], ps => .ok ps
  | line :: rest, ps =>
    if line.head? = some '#' then
      let (key, value) := parseLine line
      if key ∈ [kTITLE, kCOMMENT] ∧ (getKw key ps).isSome then
        match getKw key ps, value with
        | some (some old), some new => parseHeader rest (setKw key (some (old ++ new)) ps)
        | _, _ => .error .typeError
      else if key ≠ kSPECTRUM then parseHeader rest (setKw key value ps)
      else .ok ps
    else parseHeader rest ps

variable {F : Type}

/-- Lines 227-231: the keyword without its unit, e.g. `AZIMANGLE-dg`. `ValueError` if there are
two dashes. -/
def cleanPar (p : Text) : Py Text :=
  match splitChar '-' p with
  | [_] => .ok p
  | [a, _] => .ok (stripBy isSpace a)
  | _ => .error .valueError

def lowerE (v : Text) : Bool := v.any fun c => c = 'e' || c = 'E'

/-- Lines 232-258: the value converted to the type of its keyword. -/
def convert (parseF : Text → Option F) (tbl : Table) (clean : Text) (value : Option Text) : Val F :=
  match value with
  | none => .none
  | some v =>
    if v = [] then .str v
    else match getKw clean tbl with
      | none => .str v
      | some kw =>
        if kw.isFloat then
          match parseF v with
          | some x => .num x
          | none =>
            if lowerE v then
              match parseF (v.filter (· ≠ ' ')) with
              | some x => .num x
              | none => .str v
            else
              match parseF ((splitChar ' ' v).headD []) with
              | some x => .num x
              | none => .str v
        else .str v

def convertAll (parseF : Text → Option F) (tbl : Table) : Params → Py (List (Text × Val F))
  | [] => .ok []
  | (k, v) :: ps =>
    match cleanPar k with
    | .error e => .error e
    | .ok c =>
      match convertAll parseF tbl ps with
      | .error e => .error e
      | .ok r => .ok ((k, convert parseF tbl c v) :: r)

/-- `parse_msa_string` of an open file: the `original_metadata`, lines 181-258 and 336. -/
def parseMsa (parseF : Text → Option F) (tbl : Table) (file : Text) : Py (List (Text × Val F)) :=
  match parseHeader (fileLines file) [] with
  | .error e => .error e
  | .ok ps => convertAll parseF tbl (setKw kFORMAT (some formatText) ps)

/-- The entries of the metadata set from mapped keywords, lines 259-262 (without the units). -/
def mappedItems [DecidableEq F] (tbl : Table) (ps : List (Text × Val F)) : List (Text × Val F) :=
  ps.filterMap fun (k, v) =>
    match cleanPar k with
    | .error _ => none
    | .ok c =>
      if v = .none ∨ v = .str [] then none
      else match getKw c tbl with
        | some ⟨_, some path⟩ => some (path, v)
        | _ => none

/-! ### Writing -/

/-- The text `%s` of a value. -/
def valText (showF : F → Text) : Val F → Text
  | .str s => s
  | .num x => showF x
  | .none => ['N', 'o', 'n', 'e']

/-- One header line, e.g. line 533. -/
def headerLine (key value : Text) : Text := '#' :: ljust 12 key ++ ':' :: ' ' :: value

def crlf : Text := ['\r', '\n']

/-- `value[i : i + 64] for i in range(0, len(value), 64)`. -/
def chunks64 : Nat → Text → List Text
  | 0, _ => []
  | n + 1, s => if s = [] then [] else s.take 64 :: chunks64 n (s.drop 64)

/-- Lines 523-533: the lines of one keyword. -/
def keywordLines (showF : F → Text) (kv : Text × Val F) : List Text :=
  match kv.2 with
  | .str s =>
    if kv.1 ∈ [kTITLE, kCOMMENT] ∧ s ≠ [] then
      (chunks64 s.length s).map (headerLine kv.1)
    else [headerLine kv.1 s]
  | v => [headerLine kv.1 (valText showF v)]

/-- The file, lines 516-552, as text; the encoding with `errors="ignore"` drops the characters that
`latin-1` does not have. -/
def msaText (showF : F → Text) (kwds : List (Text × Val F)) (body : Text) : Text :=
  ((kwds.flatMap (keywordLines showF)).flatMap (· ++ crlf) ++
    (headerLine kSPECTRUM startsHere ++ crlf) ++ body).filter (fun c => c.toNat < 256)

/-- What the writer reads from the signal dictionary. `md` are the leaves of the metadata by their
dotted path, `date` the date in the notation of the format (lines 431-436). -/
structure Signal (F : Type) where
  md : List (Text × Val F)
  signalType : Text
  size : Val F
  scale : Val F
  offset : Val F
  name : Val F
  units : Val F
  date : Option Text
  om : List (Text × Val F)

/-- `"SEM" in signal_type`, line 510. -/
def hasSEM : Text → Bool
  | 'S' :: 'E' :: 'M' :: _ => true
  | _ :: t => hasSEM t
  | [] => false

/-- `path.replace("TEM", "SEM")`, line 511. -/
def replaceTEM : Text → Text
  | 'T' :: 'E' :: 'M' :: t => 'S' :: 'E' :: 'M' :: replaceTEM t
  | c :: t => c :: replaceTEM t
  | [] => []

/-- Lines 440-459. -/
def signalTypeKw (st : Text) : Text :=
  if st ∈ ["EDS_SEM".toList, "EDS_TEM".toList] then "EDS".toList
  else if st ∈ ["EELS".toList] then "ELS".toList
  else if st ∈ ["CL".toList, "CL_SEM".toList, "CL_STEM".toList] then "CLS".toList
  else if st ∈ ["EDS".toList, "WDS".toList, "ELS".toList, "AES".toList, "PES".toList, "XRF".toList,
      "CLS".toList, "GAM".toList] then st
  else []

/-- `keys_from_signal`, lines 460-480. -/
def keysFromSignal (one : F) (sig : Signal F) (format : Option Text) : List (Text × Val F) :=
  [(kFORMAT, .str formatText), (kVERSION, .str "1.0".toList),
   (kTITLE, (getKw "General.title".toList sig.md).getD (.str [])),
   ("DATE".toList, .str []), ("TIME".toList, .str []), ("OWNER".toList, .str []),
   ("NPOINTS".toList, sig.size), ("NCOLUMNS".toList, .num one),
   (kDATATYPE, (format.map Val.str).getD .none), (kSIGNALTYPE, .str []),
   ("XPERCHAN".toList, sig.scale), ("OFFSET".toList, sig.offset), ("XLABEL".toList, sig.name),
   ("XUNITS".toList, sig.units)]

/-- Lines 504-506: values from the signal, except that an empty one replaces nothing. -/
def addKeys [DecidableEq F] (new : List (Text × Val F)) (kwds : List (Text × Val F)) :
    List (Text × Val F) :=
  new.foldl (fun d e => if (getKw e.1 d).isNone ∨ e.2 ≠ .str [] then setKw e.1 e.2 d else d) kwds

/-- Lines 508-512, the effect on the global table. -/
def updateTable (st : Text) (tbl : Table) : Table :=
  if hasSEM st then tbl.map fun e => (e.1, { e.2 with mapped := e.2.mapped.map replaceTEM })
  else tbl

/-- Lines 508-513, the effect on the keywords. -/
def addMapped (md : List (Text × Val F)) (tbl : Table) (kwds : List (Text × Val F)) :
    List (Text × Val F) :=
  tbl.foldl (fun d e => match e.2.mapped with
    | none => d
    | some path => match getKw path md with
      | none => d
      | some v => setKw e.1 v d) kwds

/-- Does the signal come from an .msa file, line 423? -/
def fromMsa [DecidableEq F] (sig : Signal F) : Bool :=
  getKw kFORMAT sig.om = some (.str formatText)

/-- The format used, lines 425-431. -/
def effectiveFormat [DecidableEq F] (sig : Signal F) (format : Option Text) : Option Text :=
  match format with
  | some f => some f
  | none =>
    if fromMsa sig then
      match getKw kDATATYPE sig.om with
      | some (.str f) => some f
      | _ => none
    else some ['Y']

/-- The dictionary `loc_kwds` when writing begins, lines 419-513 and the deletions of lines
519-521. -/
def localKeywords [DecidableEq F] (one : F) (comment : Text) (tbl : Table) (sig : Signal F)
    (format : Option Text) : List (Text × Val F) :=
  let d0 : List (Text × Val F) :=
    if fromMsa sig then
      match format with
      | some f => setKw kDATATYPE (.str f) sig.om
      | none => sig.om
    else match sig.date with
      | some d => [("DATE".toList, .str d)]
      | none => []
  let d1 := setKw kSIGNALTYPE (.str (signalTypeKw sig.signalType)) d0
  let d2 := if (getKw kCOMMENT d1).isNone then setKw kCOMMENT (.str comment) d1 else d1
  let d3 := addKeys (keysFromSignal one sig (effectiveFormat sig format)) d2
  let d4 := addMapped sig.md (updateTable sig.signalType tbl) d3
  delKw kENDOFDATA (delKw kSPECTRUM d4)

/-- What a call of `file_writer` does: the file, the `original_metadata` of the signal afterwards
(`loc_kwds` is the same dictionary, line 424, and `FORMAT` and `VERSION` are popped from it) and the
global table of keywords afterwards. -/
structure Written (F : Type) where
  file : Py Text
  om : List (Text × Val F)
  tbl : Table

/-- `file_writer`, lines 419-552. `body` stands for the data section. -/
def writeMsa [DecidableEq F] (showF : F → Text) (one : F) (comment : Text) (tbl : Table)
    (sig : Signal F) (format : Option Text) (body : Text) : Written F :=
  let kwds := localKeywords one comment tbl sig format
  let rest := delKw kVERSION (delKw kFORMAT kwds)
  let head := [(kFORMAT, (getKw kFORMAT kwds).getD .none),
    (kVERSION, (getKw kVERSION kwds).getD .none)]
  { file := if effectiveFormat sig format = some ['X', 'Y'] ∨ effectiveFormat sig format = some ['Y']
      then .ok (msaText showF (head ++ rest) body) else .error .valueError
    om := if fromMsa sig then rest else sig.om
    tbl := updateTable sig.signalType tbl }

end Verif.Msa
