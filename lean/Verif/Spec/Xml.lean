import Verif.Model.Xml
/-! Specification of C81-C83: numbers in XML texts, and trees of XML elements. -/
namespace Verif.Spec.Xml
open Verif.Xml Verif.Dictionary

/-- Digits 0 to 9. -/
def Digits (s : Text) : Prop := ∀ c ∈ s, c ∈ ['0', '1', '2', '3', '4', '5', '6', '7', '8', '9']

/-- A minus sign, or nothing. -/
def Sign (s : Text) : Prop := s = [] ∨ s = ['-']

/-- An exponent, or nothing. -/
def Expo (s : Text) : Prop := s = [] ∨ ∃ e sg ds, s = e :: sg ++ ds ∧ (e = 'E' ∨ e = 'e') ∧ Sign sg ∧ Digits ds

/-- Position `i` of the text is the comma of a number that is alone between tags: `>-8,843E-7<`. -/
def Comma (s : Text) (i : Nat) : Prop :=
  ∃ a sg int frac ex b, s = a ++ '>' :: sg ++ int ++ ',' :: frac ++ ex ++ '<' :: b ∧ Sign sg ∧ Digits int ∧ int ≠ [] ∧ Digits frac ∧ Expo ex ∧
    i = a.length + 1 + sg.length + int.length

variable {α : Type}

/-- What a text stands for: the literal, or the text itself. -/
def Eval (lit : Text → Py (V α)) (t : Text) (v : V α) : Prop := lit t = .ok v ∨ (lit t = .error .valueError ∧ v = .str t)

/-- Values of the same tag: one value (a text may still be a literal), or the list of the values. -/
def Together (lit : Text → Py (V α)) (vs : List (V α)) (w : V α) : Prop :=
  match vs with
  | [.str t] => Eval lit t w
  | [v] => w = v
  | vs => w = .list vs

/-- The text without white space at its ends. -/
def trimmed (t : Option Text) : Text := stripBy isSpace (t.getD [])

/-- The text of an element with children, and the texts after the children. -/
def Whole (lit : Text → Py (V α)) (cfg : Cfg) (text : Text) (tails : List Text) (d : List (Text × V α)) : Prop :=
  let alone := ∃ w, Eval lit text w ∧ getKw cfg.textKey d = some w
  let among := ∃ t ∈ tails, t ≠ []
  (cfg.mode = .first → alone) ∧ (cfg.mode = .cat ∨ cfg.mode = .list → ¬ among → alone) ∧
    (cfg.mode = .cat → among → getKw "#interchild_text".toList d = some (.str (text ++ tails.flatten))) ∧
    (cfg.mode = .list → among → getKw "#interchild_text".toList d = some (.list (.str text :: tails.map .str)))

/-- Keys for texts. -/
def TextKey (cfg : Cfg) (k : Text) : Prop := k = cfg.textKey ∨ k = "#interchild_text".toList

mutual
/-- The value of an element: nothing; its text; or a dictionary of its children (a value, or a list of values for children of the same tag), attributes and text.
A child with the key of an attribute, or a child or an attribute with the key of a text, is not taken into account (see `C82_no_clash`). -/
def Means (lit : Text → Py (V α)) (cfg : Cfg) : El → V α → Prop
  | .mk _ attrs text _ [], v =>
    (attrs = [] → (trimmed text = [] → v = .none) ∧ (trimmed text ≠ [] → Eval lit (trimmed text) v)) ∧
    (attrs ≠ [] → ∃ d, v = .dict d ∧
      ((attrs.map Prod.fst).Nodup → ∀ e ∈ attrs, ¬ TextKey cfg e.1 → ∃ w, Eval lit e.2 w ∧ getKw e.1 d = some w) ∧
      (trimmed text ≠ [] → ∃ w, Eval lit (trimmed text) w ∧ getKw cfg.textKey d = some w) ∧
      ∀ k, getKw k d ≠ none → k ∈ attrs.map Prod.fst ∨ (k = cfg.textKey ∧ trimmed text ≠ []))
  | .mk _ attrs text _ (c :: cs), v =>
    ∃ d ps, v = .dict d ∧ Children lit cfg (c :: cs) ps ∧
      (∀ k ∈ ps.map Prod.fst, k ∉ attrs.map (fun e => cfg.pre ++ e.1) → ¬ TextKey cfg k →
        ∃ w, getKw k d = some w ∧ Together lit ((ps.filter fun p => p.1 = k).map Prod.snd) w) ∧
      ((attrs.map Prod.fst).Nodup → ∀ e ∈ attrs, ¬ TextKey cfg (cfg.pre ++ e.1) → ∃ w, Eval lit e.2 w ∧ getKw (cfg.pre ++ e.1) d = some w) ∧
      (trimmed text ≠ [] → Whole lit cfg (trimmed text) ((c :: cs).map fun x => trimmed x.tail) d) ∧
      ∀ k, getKw k d ≠ none → k ∈ ps.map Prod.fst ∨ (∃ e ∈ attrs, k = cfg.pre ++ e.1) ∨ (TextKey cfg k ∧ trimmed text ≠ [] ∧ cfg.mode ≠ .skip)

/-- What the children contribute, in the order of the document: tag and value, or, for a tag that is left out, the entries of its value. -/
def Children (lit : Text → Py (V α)) (cfg : Cfg) : List El → List (Text × V α) → Prop
  | [], ps => ps = []
  | c :: cs, ps => ∃ v qs, Means lit cfg c v ∧ Children lit cfg cs qs ∧
    ((c.tag ∉ cfg.flatten ∧ ps = (c.tag, v) :: qs) ∨ (c.tag ∈ cfg.flatten ∧ ∃ d, v = .dict d ∧ ps = d ++ qs))
end

mutual
/-- No element that is left out is without content. -/
def Filled (cfg : Cfg) : El → Prop
  | .mk _ _ _ _ children => AllFilled cfg children

/-- The same for all elements of a list. -/
def AllFilled (cfg : Cfg) : List El → Prop
  | [] => True
  | c :: cs => Filled cfg c ∧ (c.tag ∈ cfg.flatten → c.attrs ≠ [] ∨ c.children ≠ []) ∧ AllFilled cfg cs
end

/-- Names of XML have none of these characters. -/
def Name (t : Text) : Prop := '@' ∉ t ∧ '#' ∉ t

mutual
/-- An element with a text has nothing else; in other elements, the names of attributes and children are different. There are no dots in names. -/
def Plain : El → Prop
  | .mk tag attrs text _ children =>
    '.' ∉ tag ∧ (text.getD [] ≠ [] → attrs = [] ∧ children = []) ∧
      (text.getD [] = [] → (attrs.map Prod.fst ++ children.map El.tag).Nodup ∧ AllPlain children)

/-- The same for all elements of a list. -/
def AllPlain : List El → Prop
  | [] => True
  | c :: cs => Plain c ∧ AllPlain cs
end

mutual
/-- The attributes and texts of an element, and their places. -/
def leaves : El → List (List String × Text)
  | .mk tag attrs text _ children =>
    let here := String.ofList tag
    if text.getD [] ≠ [] then [([here], text.getD [])]
    else attrs.map (fun a => ([here, String.ofList a.1], a.2)) ++ (allLeaves children).map fun p => (here :: p.1, p.2)

/-- The same for all elements of a list. -/
def allLeaves : List El → List (List String × Text)
  | [] => []
  | c :: cs => leaves c ++ allLeaves cs
end

/-- A place in a box. -/
def Stands (items : List (String × Tree Text)) (path : List String) (t : Text) : Prop := getPath items path = some (.leaf (some t))

end Verif.Spec.Xml
