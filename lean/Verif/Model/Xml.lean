import Verif.Py.Text
import Verif.Py.Dec
import Verif.Py.Assoc
import Verif.Model.Dictionary
/-!
Model of `rsciio/utils/xml.py`.

Simplifications: the XML parser (`xml.etree`) is not modelled, an element is what the parser gives; bytes are written as characters;
`ast.literal_eval` is a parameter `lit` (an error `valueError` stands for `ValueError` and `SyntaxError`, other errors are not caught); for `xml2dtb`, the model of `DTBox` of
`Model/Dictionary` is used, and names of attributes have no dots.
-/
namespace Verif.Xml

/-! ### `sanitize_msxml_float` -/

/-- `\d+,` or `\d*` up to another character: the longest run of digits and the rest. -/
def digits (s : Text) : Text × Text := s.span isDigit

/-- `-?`. -/
def minus (s : Text) : Text × Text := match s with
  | '-' :: t => (['-'], t)
  | _ => ([], s)

/-- `([Ee]-?\d*)?`, line 46. -/
def exponent (s : Text) : Text × Text := match s with
  | c :: t =>
    if c = 'E' ∨ c = 'e' then
      let m := minus t
      let d := digits m.2
      (c :: m.1 ++ d.1, d.2)
    else ([], s)
  | [] => ([], s)

/-- A match of the pattern of line 46 at the beginning of a text: the two groups, and the rest. After each part of the pattern comes a character that
this part does not match, so that there is nothing to try again. -/
def matchAt (s : Text) : Option (Text × Text × Text) := match s with
  | '>' :: t =>
    let m := minus t
    let d := digits m.2
    if d.1 = [] then none
    else match d.2 with
      | ',' :: u =>
        let f := digits u
        let e := exponent f.2
        match e.2 with
        | '<' :: r => some ('>' :: m.1 ++ d.1, f.1 ++ e.1 ++ ['<'], r)
        | _ => none
      | _ => none
  | _ => none

/-- `sanitize_msxml_float`, lines 49-76: `re.sub` from left to right; `n` limits the number of rounds (the length of the text is enough). -/
def sanitizeLoop : Nat → Text → Text
  | 0, s => s
  | _ + 1, [] => []
  | n + 1, c :: t => match matchAt (c :: t) with
    | some (p, q, r) => p ++ '.' :: q ++ sanitizeLoop n r
    | none => c :: sanitizeLoop n t

def sanitize (s : Text) : Text := sanitizeLoop s.length s

/-! ### `XmlToDict` -/

/-- An element: tag, attributes, text, text after the element (`tail`), children. -/
inductive El where
  | mk (tag : Text) (attrs : List (Text × Text)) (text tail : Option Text) (children : List El)

namespace El
def tag : El → Text | .mk t _ _ _ _ => t
def attrs : El → List (Text × Text) | .mk _ a _ _ _ => a
def text : El → Option Text | .mk _ _ t _ _ => t
def tail : El → Option Text | .mk _ _ _ t _ => t
def children : El → List El | .mk _ _ _ _ c => c
end El

/-- Python values: `None`, texts, what `literal_eval` makes of texts, dictionaries and lists. -/
inductive V (α : Type) where
  | none
  | str (t : Text)
  | obj (o : α)
  | dict (d : List (Text × V α))
  | list (l : List (V α))

/-- `interchild_text_parsing`. -/
inductive Mode where
  | skip | first | cat | list
  deriving DecidableEq

/-- The arguments of `XmlToDict`, lines 150-181. -/
structure Cfg where
  pre : Text
  textKey : Text
  flatten : List Text
  mode : Mode

variable {α : Type}

/-- `eval`, lines 183-227: `literal_eval` of something that is not a text raises a `ValueError`, and is returned as it is. -/
def evalV (lit : Text → Py (V α)) : V α → Py (V α)
  | .str t => match lit t with
    | .error .valueError => .ok (.str t)
    | r => r
  | v => .ok v

/-- `for key, val in dc_node.items(): dd_node[key].append(val)`, lines 252-254, for one child. -/
def addChild (dd : List (Text × List (V α))) : V α → Py (List (Text × List (V α)))
  | .dict d => .ok (d.foldl (fun dd e => setKw e.1 ((getKw e.1 dd).getD [] ++ [e.2]) dd) dd)
  | _ => .error .attributeError

/-- Lines 256-259: one child stays alone, more are a list. -/
def group (lit : Text → Py (V α)) (vs : List (V α)) : Py (V α) := match vs with
  | [v] => evalV lit v
  | vs => .ok (.list vs)

/-- `update` with the attributes, lines 261-265. -/
def addAttrs (lit : Text → Py (V α)) (pre : Text) (attrs : List (Text × Text)) (d : List (Text × V α)) : Py (List (Text × V α)) :=
  attrs.foldlM (fun d e => (evalV lit (.str e.2)).map fun v => setKw (pre ++ e.1) v d) d

/-- `str.strip()`. -/
def strip (t : Text) : Text := stripBy isSpace t

/-- The text of an element, lines 266-267. -/
def textOf (e : El) : Text := strip (e.text.getD [])

/-- Lines 270-285: the text of an element with children. -/
def addText (lit : Text → Py (V α)) (cfg : Cfg) (children : List El) (text : Text) (d : List (Text × V α)) : Py (List (Text × V α)) :=
  match cfg.mode with
  | .skip => .ok d
  | .first => (evalV lit (.str text)).map fun v => setKw cfg.textKey v d
  | mode =>
    let tails := children.map fun c => strip (c.tail.getD [])
    if tails.any (· ≠ []) then
      let v : V α := if mode = .cat then .str ((text :: tails).flatten) else .list ((text :: tails).map .str)
      .ok (setKw "#interchild_text".toList v d)
    else (evalV lit (.str text)).map fun v => setKw cfg.textKey v d

mutual
/-- `dictionarize`, lines 229-291, without `ignore_children`: `d_node[et_node.tag]`. -/
def value (lit : Text → Py (V α)) (cfg : Cfg) : El → Py (V α)
  | .mk _ attrs text _ children =>
    let t := strip (text.getD [])
    if children.isEmpty then leaf lit cfg attrs t
    else match groups lit cfg children [] with
      | .error e => .error e
      | .ok dd => do
        let d ← dd.mapM fun e => (group lit e.2).map fun v => (e.1, v)
        let d ← addAttrs lit cfg.pre attrs d
        let d ← if t = [] then .ok d else addText lit cfg children t d
        .ok (.dict d)

/-- The children, lines 251-254. -/
def groups (lit : Text → Py (V α)) (cfg : Cfg) : List El → List (Text × List (V α)) → Py (List (Text × List (V α)))
  | [], dd => .ok dd
  | c :: cs, dd => match value lit cfg c with
    | .error e => .error e
    | .ok v => match addChild dd (if c.tag ∈ cfg.flatten then v else .dict [(c.tag, v)]) with
      | .error e => .error e
      | .ok dd => groups lit cfg cs dd

/-- An element without children (or with `ignore_children`). -/
def leaf (lit : Text → Py (V α)) (cfg : Cfg) (attrs : List (Text × Text)) (t : Text) : Py (V α) :=
  if attrs.isEmpty then (if t = [] then .ok .none else evalV lit (.str t))
  else do
    let d ← addAttrs lit [] attrs []
    let d ← if t = [] then .ok d else (evalV lit (.str t)).map fun v => setKw cfg.textKey v d
    .ok (.dict d)
end

/-- `dictionarize`, lines 229-291. -/
def dictionarize (lit : Text → Py (V α)) (cfg : Cfg) (e : El) (ignoreChildren : Bool) : Py (V α) := do
  let v ← if ignoreChildren then leaf lit cfg e.attrs (textOf e) else value lit cfg e
  .ok (if e.tag ∈ cfg.flatten then v else .dict [(e.tag, v)])

/-! ### `xml2dtb` -/

open Verif.Dictionary (Tree addNode setItem putKey lookup)

/-- `path.split(".")`. -/
def pathOf (tag : Text) : List String := (splitChar '.' tag).map String.ofList

/-- `dictree[path]` is changed by `g`; there is a node or a value at the path. -/
def modifyAt {β : Type} (g : List (String × Tree β) → Py (List (String × Tree β))) :
    List (String × Tree β) → List String → Py (List (String × Tree β))
  | items, [] => g items
  | items, k :: ks => match lookup k items with
    | some (.node sub) => match modifyAt g sub ks with
      | .ok sub' => .ok (putKey k (.node sub') items)
      | .error e => .error e
    | some (.leaf _) => .error .attributeError
    | none => .error .keyError

mutual
/-- `xml2dtb`, lines 294-316. -/
def toBox (items : List (String × Tree Text)) : El → Py (List (String × Tree Text))
  | .mk tag attrs text _ children =>
    if text.getD [] ≠ [] then setItem items (pathOf tag) (.leaf text)
    else match addNode items (pathOf tag) with
      | .error e => .error e
      | .ok items =>
        if attrs.isEmpty ∧ children.isEmpty then .ok items
        else modifyAt (fun sub => allToBox (attrs.foldl (fun d e => putKey (String.ofList e.1) (.leaf (some e.2)) d) sub) children) items (pathOf tag)

/-- The loop over the children, lines 315-316. -/
def allToBox (items : List (String × Tree Text)) : List El → Py (List (String × Tree Text))
  | [] => .ok items
  | c :: cs => match toBox items c with
    | .error e => .error e
    | .ok items => allToBox items cs
end

/-- `convert_xml_to_dict`, lines 319-337, of an element. -/
def convert (e : El) : Py (List (String × Tree Text)) := toBox [] e

end Verif.Xml
