import Verif.Lemmas.Xml
import Verif.Lemmas.XmlDict
import Verif.Lemmas.XmlBox
/-! C81-C83: numbers in XML texts, dictionaries of XML elements, boxes of XML elements. -/
namespace Verif.Props.Xml
open Verif.Xml Verif.Spec.Xml Verif.Dictionary Verif.Lemmas

/-! ### C81: commas of numbers -/

/-- C81: exactly the commas of numbers that are alone between tags are replaced by points, and nothing else is changed. -/
theorem C81_comma (s : Text) : (sanitize s).length = s.length ∧
    ∀ i, (Comma s i → (sanitize s)[i]? = some '.') ∧ (¬ Comma s i → (sanitize s)[i]? = s[i]?) :=
  Lemmas.Xml.sanitizeLoop_get s.length s (Nat.le_refl _)

example : sanitize "<a>-8,843E-7</a><b>3,5</b><c>x,y</c>".toList = "<a>-8.843E-7</a><b>3.5</b><c>x,y</c>".toList := by decide +kernel

example : Comma "<a>-8,843E-7</a>".toList 5 :=
  ⟨"<a".toList, ['-'], ['8'], "843".toList, "E-7".toList, "/a>".toList, by decide, Or.inr rfl, by unfold Digits; decide, by decide, by unfold Digits; decide,
    Or.inr ⟨'E', ['-'], ['7'], by decide, Or.inl rfl, Or.inr rfl, by unfold Digits; decide⟩, by decide⟩

/-- The full claim would be: the commas of all numbers are replaced. A number with a plus sign in its exponent (as Windows writes them: `1,5E+07`) keeps its comma. -/
theorem C81_fails_plus : sanitize "<a>1,5E+07</a>".toList = "<a>1,5E+07</a>".toList := by decide +kernel

/-- The full claim would be: only commas of numbers are replaced. A list of two whole numbers becomes one number. -/
theorem C81_fails_list : sanitize "<size>512,512</size>".toList = "<size>512.512</size>".toList := by decide +kernel

/-- The full claim would be: the commas of all numbers of the document are replaced. Numbers in attributes keep their commas. -/
theorem C81_fails_attribute : sanitize "<a scale=\"0,5\"/>".toList = "<a scale=\"0,5\"/>".toList := by decide +kernel

/-! ### C82: dictionaries of XML elements -/

section Dict
variable {α : Type}

/-- C82, for any element that is read without an error: the dictionary holds the values of its children, attributes and texts, and nothing else.
The full claim is for any document, without exceptions for equal keys, and without evaluating a text twice (see `C82_fails_…`). -/
theorem C82_value_partial (lit : Text → Py (V α)) (cfg : Cfg) (e : El) (r : V α) (h : dictionarize lit cfg e false = .ok r) :
    ∃ v, Means lit cfg e v ∧ r = if e.tag ∈ cfg.flatten then v else .dict [(e.tag, v)] := by
  unfold dictionarize at h
  simp only [Bool.false_eq_true, if_false] at h
  cases hv : value lit cfg e with
  | error x => rw [hv] at h; cases h
  | ok v =>
    rw [hv] at h
    injection h with h
    exact ⟨v, XmlDict.value_means lit cfg e v hv, h.symm⟩

/-- C82 with `ignore_children`: the value is that of the element without its children. -/
theorem C82_ignore (lit : Text → Py (V α)) (cfg : Cfg) (tag : Text) (attrs : List (Text × Text)) (text tail : Option Text) (children : List El) (r : V α)
    (h : dictionarize lit cfg (.mk tag attrs text tail children) true = .ok r) :
    ∃ v, Means lit cfg (.mk tag attrs text tail []) v ∧ r = if tag ∈ cfg.flatten then v else .dict [(tag, v)] := by
  unfold dictionarize at h
  simp only [if_true] at h
  cases hv : leaf lit cfg attrs (textOf (.mk tag attrs text tail children)) with
  | error x =>
    have h : (leaf lit cfg attrs (textOf (.mk tag attrs text tail children)) >>= _ : Py _) = .ok r := h
    rw [hv] at h; cases h
  | ok v =>
    have h : (leaf lit cfg attrs (textOf (.mk tag attrs text tail children)) >>= _ : Py _) = .ok r := h
    rw [hv] at h
    injection h with h
    exact ⟨v, XmlDict.leaf_means hv, h.symm⟩

/-- C82: any document is read, if `literal_eval` raises no other errors than `ValueError` and `SyntaxError` (`valueError` here), and no element that is left out is empty. -/
theorem C82_total (lit : Text → Py (V α)) (hl : ∀ t e, lit t = .error e → e = .valueError) (cfg : Cfg) (e : El) (hf : Filled cfg e) (i : Bool) :
    ∃ r, dictionarize lit cfg e i = .ok r := by
  unfold dictionarize
  cases i with
  | false =>
    obtain ⟨v, hv, _⟩ := XmlBox.value_ok hl cfg e hf
    simp only [Bool.false_eq_true, if_false]
    exact ⟨_, by rw [hv]; rfl⟩
  | true =>
    obtain ⟨v, hv, _⟩ := XmlBox.leaf_ok hl cfg e.attrs (textOf e)
    simp only [if_true]
    exact ⟨_, by rw [hv]; rfl⟩

theorem children_tags {lit : Text → Py (V α)} {cfg : Cfg} (hf : cfg.flatten = []) : ∀ {cs : List El} {ps : List (Text × V α)}, Children lit cfg cs ps →
    List.Forall₂ (fun c p => p.1 = c.tag ∧ Means lit cfg c p.2) cs ps
  | [], ps, h => by
    rw [Children] at h
    subst h
    exact .nil
  | c :: cs, ps, h => by
    rw [Children] at h
    obtain ⟨v, qs, h1, h2, (⟨_, rfl⟩ | ⟨h3, _⟩)⟩ := h
    · exact .cons ⟨rfl, h1⟩ (children_tags hf h2)
    · rw [hf] at h3
      cases h3

theorem keys_tags {R : El → V α → Prop} : ∀ {cs : List El} {ps : List (Text × V α)}, List.Forall₂ (fun c p => p.1 = c.tag ∧ R c p.2) cs ps →
    ps.map Prod.fst = cs.map El.tag
  | _, _, .nil => rfl
  | _, _, .cons hx h => by rw [List.map_cons, List.map_cons, hx.1, keys_tags h]

/-- C82 with the default arguments: keys of children, attributes and texts are never the same, so that no child, attribute or text (of an element with children) is lost.
The values of the children of the same tag are in the order of the document. -/
theorem C82_default (lit : Text → Py (V α)) (mode : Mode) (tag : Text) (attrs : List (Text × Text)) (text tail : Option Text) (c : El) (cs : List El) (v : V α)
    (hn : ∀ x ∈ (c :: cs).map El.tag ++ attrs.map Prod.fst, Name x) (hnd : (attrs.map Prod.fst).Nodup)
    (h : Means lit { pre := ['@'], textKey := "#value".toList, flatten := [], mode := mode } (.mk tag attrs text tail (c :: cs)) v) :
    ∃ d ps, v = .dict d ∧
      List.Forall₂ (fun x p => p.1 = x.tag ∧ Means lit { pre := ['@'], textKey := "#value".toList, flatten := [], mode := mode } x p.2) (c :: cs) ps ∧
      (∀ k ∈ (c :: cs).map El.tag, ∃ w, getKw k d = some w ∧ Together lit ((ps.filter fun p => p.1 = k).map Prod.snd) w) ∧
      (∀ e ∈ attrs, ∃ w, Eval lit e.2 w ∧ getKw ('@' :: e.1) d = some w) ∧
      (trimmed text ≠ [] → Whole lit { pre := ['@'], textKey := "#value".toList, flatten := [], mode := mode } (trimmed text) ((c :: cs).map fun x => trimmed x.tail) d) ∧
      ∀ k, getKw k d ≠ none → k ∈ (c :: cs).map El.tag ∨ (∃ e ∈ attrs, k = '@' :: e.1) ∨
        ((k = "#value".toList ∨ k = "#interchild_text".toList) ∧ trimmed text ≠ [] ∧ mode ≠ .skip) := by
  rw [Means] at h
  obtain ⟨d, ps, h1, h2, h3, h4, h5, h6⟩ := h
  have hc := children_tags rfl h2
  have hkeys : ps.map Prod.fst = (c :: cs).map El.tag := by
    exact keys_tags hc
  rw [hkeys] at h3
  refine ⟨d, ps, h1, hc, fun k hk => ?_, fun e he => ?_, h5, fun k hk => ?_⟩
  · have hname := hn k (List.mem_append_left _ hk)
    refine h3 k hk ?_ ?_
    · intro hh
      obtain ⟨e, _, rfl⟩ := List.mem_map.mp hh
      exact hname.1 (by simp)
    · rintro (rfl | rfl)
      · exact hname.2 (show '#' ∈ "#value".toList by decide)
      · exact hname.2 (by decide)
  · refine h4 hnd e he ?_
    rintro (hh | hh)
    · have := congrArg (fun l => l[0]?) hh
      revert this
      simp
    · have := congrArg (fun l => l[0]?) hh
      revert this
      simp
  · have := h6 k hk
    rw [hkeys] at this
    exact this

end Dict

/-! A document with attributes, children of the same tag, texts and a number. -/

/-- A part of `literal_eval`: the number 12 and the text `'12'`. -/
def lit12 (t : Text) : Py (V Int) :=
  if t = "12".toList then .ok (.obj 12) else if t = "'12'".toList then .ok (.str "12".toList) else .error .valueError

/-- The default arguments. -/
def dflt : Cfg := { pre := ['@'], textKey := "#value".toList, flatten := [], mode := .first }

/-- An element without attributes and children. -/
def txt (tag t : String) : El := .mk tag.toList [] (some t.toList) none []

/-- The texts of a value at a path of keys. -/
def at_ (r : Py (V Int)) (path : List String) : Option (V Int) := match r with
  | .error _ => none
  | .ok v => path.foldl (fun v k => match v with | some (.dict d) => getKw k.toList d | _ => none) (some v)

/-- Equality with a number. -/
def isNum (n : Int) : Option (V Int) → Bool
  | some (.obj m) => m = n
  | _ => false

/-- Equality with a text. -/
def isStr (s : String) : Option (V Int) → Bool
  | some (.str t) => t = s.toList
  | _ => false

/-- Equality with a list of texts. -/
def isStrs (ss : List String) : Option (V Int) → Bool
  | some (.list l) => l.length = ss.length && (l.zip ss).all fun p => isStr p.2 (some p.1)
  | _ => false

def sample : El := .mk "a".toList [("k".toList, "12".toList)] (some "\n  top\n".toList) none
  [txt "b" "one", txt "n" " 12 ", .mk "b".toList [] (some "two".toList) none [], .mk "e".toList [("u".toList, "nm".toList)] (some "12".toList) none []]

example : isNum 12 (at_ (dictionarize lit12 dflt sample false) ["a", "@k"]) ∧ isStr "top" (at_ (dictionarize lit12 dflt sample false) ["a", "#value"]) ∧
    isStrs ["one", "two"] (at_ (dictionarize lit12 dflt sample false) ["a", "b"]) ∧ isNum 12 (at_ (dictionarize lit12 dflt sample false) ["a", "n"]) ∧
    isStr "nm" (at_ (dictionarize lit12 dflt sample false) ["a", "e", "u"]) ∧ isNum 12 (at_ (dictionarize lit12 dflt sample false) ["a", "e", "#value"]) := by
  decide +kernel

example : ∀ t e, lit12 t = .error e → e = .valueError := by
  intro t e h
  unfold lit12 at h
  split at h
  · cases h
  · split at h
    · cases h
    · injection h with h; exact h.symm

example : Filled { dflt with flatten := ["f".toList] } (.mk "a".toList [] none none [.mk "f".toList [] none none [txt "b" "1"]]) := by
  unfold Filled AllFilled AllFilled Filled AllFilled AllFilled txt Filled AllFilled
  exact ⟨⟨trivial, by simp [El.tag], trivial⟩, by simp [El.children, El.tag], trivial⟩

/-- The full claim would be: the value of a child is that of the element on its own. A text that is alone is evaluated twice: the text `'12'` is the text 12 on its own,
and the number 12 as a child. -/
theorem C82_fails_twice : isStr "12" (at_ (dictionarize lit12 dflt (txt "b" "'12'") false) ["b"]) ∧
    isNum 12 (at_ (dictionarize lit12 dflt (.mk "a".toList [] none none [txt "b" "'12'"]) false) ["a", "b"]) := by decide +kernel

/-- The full claim would be: any document is read. An empty element that is left out raises an AttributeError. -/
theorem C82_fails_empty : (match dictionarize lit12 { dflt with flatten := ["f".toList] } (.mk "a".toList [] none none [.mk "f".toList [] none none []]) false with
    | .error .attributeError => true
    | _ => false) = true := by decide +kernel

/-- The full claim would be: all texts between children are kept in the modes "cat" and "list". Without a text before the first child, they are lost. -/
theorem C82_fails_tails : (match dictionarize lit12 { dflt with mode := .cat } (.mk "a".toList [] none none [.mk "b".toList [] none (some "text".toList) []]) false with
    | .ok (.dict [(_, .dict [(k, .none)])]) => k = "b".toList
    | _ => false) = true := by decide +kernel

/-- The full claim would be: no child is lost. With an empty prefix (as for TriVista), an attribute replaces the child of the same name. -/
theorem C82_fails_prefix : isStr "nm" (at_ (dictionarize lit12 { dflt with pre := [] } (.mk "a".toList [("b".toList, "nm".toList)] none none [txt "b" "12"]) false) ["a", "b"]) ∧
    isNum 12 (at_ (dictionarize lit12 { dflt with pre := [] } (.mk "a".toList [] none none [txt "b" "12"]) false) ["a", "b"]) := by decide +kernel

/-- The full claim would be: any text is kept as it is if it is no literal. `literal_eval` of `{[]: 1}` raises a TypeError, which is not caught. -/
theorem C82_fails_type (lit : Text → Py (V Int)) (h : lit "{[]: 1}".toList = .error .typeError) :
    dictionarize lit dflt (txt "b" "{[]: 1}") false = .error .typeError := by
  have hs : strip "{[]: 1}".toList = "{[]: 1}".toList := by decide +kernel
  have hv : value lit dflt (txt "b" "{[]: 1}") = .error .typeError := by
    have hl : leaf lit dflt [] "{[]: 1}".toList = .error .typeError := by
      rw [leaf]
      simp only [List.isEmpty_nil, if_true]
      rw [if_neg (by decide), evalV, h]
    rw [← hl, ← hs]
    unfold txt
    rw [value]
    rfl
  unfold dictionarize
  simp only [Bool.false_eq_true, if_false]
  rw [hv]
  rfl

/-! ### C83: boxes of XML elements -/

/-- C83, for elements where an element with a text has neither attributes nor children, and the names of children and attributes of an element are different:
the attributes and texts of the document, and no others, are at their places in the box.
The full claim is for any element (see `C83_fails_…`). -/
theorem C83_box_partial (e : El) (h : Plain e) : ∃ items, convert e = .ok items ∧ ∀ path t, Stands items path t ↔ (path, t) ∈ leaves e := by
  refine ⟨[(String.ofList e.tag, XmlBox.treeOf e)], XmlBox.toBox_plain e [] h rfl, fun path t => ?_⟩
  cases path with
  | nil =>
    constructor
    · intro hh
      cases hh
    · intro hh
      obtain ⟨ks, hks⟩ := XmlBox.leaves_head hh
      cases hks
  | cons k ks => exact XmlBox.stands_el e h k ks t

def boxSample : El := .mk "a".toList [("k".toList, "v".toList)] none none [txt "b" "1", .mk "c".toList [] none none [txt "b" "2"], .mk "d".toList [] none none []]

example : Plain boxSample := by
  unfold boxSample txt Plain AllPlain Plain AllPlain Plain AllPlain Plain AllPlain
  simp [AllPlain, Plain, El.tag]

example : leaves boxSample = [(["a", "k"], "v".toList), (["a", "b"], "1".toList), (["a", "c", "b"], "2".toList)] := by decide +kernel

/-- What `convert` gives at a path. -/
def placed (e : El) (path : List String) : Option (Option Text) := match convert e with
  | .ok items => match getPath items path with
    | some (.leaf t) => some t
    | _ => none
  | .error _ => none

example : placed boxSample ["a", "c", "b"] = some (some "2".toList) := by decide +kernel

/-- The full claim would be: all texts of the document are kept. With line breaks between the elements, all children are lost. -/
theorem C83_fails_indented : placed (.mk "a".toList [] (some "\n  ".toList) none [txt "b" "1"]) ["a"] = some (some "\n  ".toList) ∧
    placed (.mk "a".toList [] (some "\n  ".toList) none [txt "b" "1"]) ["a", "b"] = none := by decide +kernel

/-- The full claim would be: all attributes are kept. Those of an element with a text are lost. -/
theorem C83_fails_attributes : placed (.mk "a".toList [("unit".toList, "nm".toList)] (some "5".toList) none []) ["a"] = some (some "5".toList) ∧
    placed (.mk "a".toList [("unit".toList, "nm".toList)] (some "5".toList) none []) ["a", "unit"] = none := by decide +kernel

/-- The full claim would be: all texts are kept. Of children of the same tag, only the last one is kept. -/
theorem C83_fails_repeated : placed (.mk "a".toList [] none none [txt "b" "1", txt "b" "2"]) ["a", "b"] = some (some "2".toList) := by decide +kernel

/-- The full claim would be: any document is read. A child with children, after a child of the same tag with a text, raises an AttributeError. -/
theorem C83_fails_error : (match convert (.mk "a".toList [] none none [txt "b" "1", .mk "b".toList [] none none [txt "c" "2"]]) with
    | .error .attributeError => true
    | _ => false) = true := by decide +kernel

end Verif.Props.Xml
