import Verif.Model.TiaMeta
import Mathlib.Tactic.NormNum
/-!
C151 and C152: metadata of `.emi` files, and the units of images.
-/
namespace Verif.Props.TiaMeta
open Verif.TiaMeta

/-! ### Files -/

/-- An entry of the description of the experiment: label, value and units. -/
abbrev Entry := Text × Text × Option Text

/-- The name of an entry: with its units, if it has any. -/
def Entry.name : Entry → Text
  | (l, _, none) => l
  | (l, _, some u) => l ++ "_".toList ++ u

/-- An entry as written. -/
def Entry.elem : Entry → Elem
  | (l, v, u) => .mk "Data".toList none [.mk "Label".toList (some l) [], .mk "Value".toList (some v) [], .mk "Unit".toList u []]

/-- The description of the experiment as written. -/
def description (es : List Entry) : Elem :=
  .mk "ExperimentalDescription".toList none [.mk "Root".toList none (es.map Entry.elem)]

/-- Names of elements that are read in another way. -/
def Special (t : Text) : Prop := t = "ExperimentalDescription".toList ∨ t = "TrueImageHeaderInfo".toList

/-- Names that are alike up to blanks and underscores. -/
def Alike (a b : Text) : Prop := List.Forall₂ (fun c d => c = d ∨ (c = ' ' ∧ d = '_') ∨ (c = '_' ∧ d = ' ')) a b

/-- No two names are alike. -/
def Apart (l : List Text) : Prop := l.Pairwise fun a b => ¬ Alike a b

/-- Files as written: elements have a text or elements of different names in them, and a description has entries of different names. -/
inductive Good : Elem → Prop
  | text {tag t : Text} {kids : List Elem} : ¬ Special tag → t ≠ [] → Good (.mk tag (some t) kids)
  | node {tag : Text} {kids : List Elem} : ¬ Special tag → Apart (kids.map Elem.tag) → (∀ k ∈ kids, Good k) → Good (.mk tag none kids)
  | description {es : List Entry} : (∀ e ∈ es, e.2.2 ≠ some []) → Apart (es.map Entry.name) → Good (description es)

/-- What a file says at a path of names below an element: a number for entries with units whose value is a number, else a text. -/
inductive Says (float : Text → Option ℚ) : Elem → List Text → Val → Prop
  | text {tag t : Text} {kids : List Elem} : Says float (.mk tag (some t) kids) [] (.text t)
  | node {tag : Text} {kids : List Elem} {k : Elem} {p : List Text} {x : Val} : ¬ Special tag → k ∈ kids → Says float k p x → Says float (.mk tag none kids) (k.tag :: p) x
  | number {es : List Entry} {e : Entry} {u : Text} {q : ℚ} : e ∈ es → e.2.2 = some u → float e.2.1 = some q → Says float (description es) [e.name] (.num q)
  | word {es : List Entry} {e : Entry} : e ∈ es → (e.2.2 = none ∨ float e.2.1 = none) → Says float (description es) [e.name] (.text e.2.1)

/-- The value at a path. -/
def getPath : List Text → Val → Option Val
  | [], v => some v
  | k :: p, .box d => match getKw k d with
    | some v => getPath p v
    | none => none
  | _ :: _, _ => none

/-- No box. -/
def IsLeaf (x : Val) : Prop := ∀ b, x ≠ .box b

/-! ### Names -/

theorem slug_char {c d : Char} : ((if c = ' ' then '_' else c) = if d = ' ' then '_' else d) ↔ (c = d ∨ (c = ' ' ∧ d = '_') ∨ (c = '_' ∧ d = ' ')) := by
  by_cases h1 : c = ' '
  · subst h1
    by_cases h2 : d = ' '
    · subst h2
      simp
    · rw [if_pos rfl, if_neg h2]
      constructor
      · rintro rfl
        exact Or.inr (Or.inl ⟨rfl, rfl⟩)
      · rintro (h | ⟨_, h⟩ | ⟨h, _⟩)
        · exact absurd h.symm h2
        · exact h.symm
        · exact absurd h (by decide)
  · rw [if_neg h1]
    by_cases h2 : d = ' '
    · subst h2
      rw [if_pos rfl]
      constructor
      · rintro rfl
        exact Or.inr (Or.inr ⟨rfl, rfl⟩)
      · rintro (h | ⟨h, _⟩ | ⟨h, _⟩)
        · exact absurd h h1
        · exact absurd h h1
        · exact h
    · rw [if_neg h2]
      constructor
      · exact Or.inl
      · rintro (h | ⟨h, _⟩ | ⟨_, h⟩)
        · exact h
        · exact absurd h h1
        · exact absurd h h2

theorem slug_alike : ∀ {a b : Text}, slug a = slug b ↔ Alike a b
  | [], [] => ⟨fun _ => .nil, fun _ => rfl⟩
  | [], _ :: _ => by
    constructor
    · intro h
      cases h
    · intro h
      cases h
  | _ :: _, [] => by
    constructor
    · intro h
      cases h
    · intro h
      cases h
  | c :: a, d :: b => by
    unfold Alike
    rw [List.forall₂_cons]
    have := slug_alike (a := a) (b := b)
    unfold Alike at this
    rw [← this, ← slug_char]
    simp only [slug, List.map_cons, List.cons.injEq]

theorem apart_iff {l : List Text} : Apart l ↔ (l.map slug).Nodup := by
  unfold Apart List.Nodup
  rw [List.pairwise_map]
  simp only [slug_alike, ne_eq]

theorem apart_nodup {l : List Text} (h : Apart l) : l.Nodup :=
  h.imp fun h e => h (slug_alike.1 (by rw [e]))

/-! ### Entries -/

section
variable {float : Text → Option ℚ} {xml : Text → Bool}

/-- The value of an entry. -/
def Entry.val (float : Text → Option ℚ) (e : Entry) : Val :=
  match e.2.2, float e.2.1 with
  | some _, some q => .num q
  | _, _ => .text e.2.1

theorem entry_step {e : Entry} {d : Box} (h : e.2.2 ≠ some []) (hn : e.name ∉ d.map Prod.fst) : dataEntry float e.elem d = .ok (d ++ [(e.name, e.val float)]) := by
  obtain ⟨l, v, u⟩ := e
  have f1 : findText "Label" (Entry.elem (l, v, u)).kids = .ok (some l) := rfl
  have f2 : findText "Value" (Entry.elem (l, v, u)).kids = .ok (some v) := rfl
  have f3 : findText "Unit" (Entry.elem (l, v, u)).kids = .ok u := rfl
  unfold dataEntry
  simp only [f1, f2, f3, bind, Except.bind]
  cases u with
  | none =>
    have hn' : l ∉ d.map Prod.fst := hn
    show Except.ok (setKw l (.text v) d) = _
    rw [setKw_new hn']
    rfl
  | some u =>
    cases u with
    | nil => exact absurd rfl h
    | cons c u =>
      have hn' : l ++ '_' :: c :: u ∉ d.map Prod.fst := by simpa [Entry.name] using hn
      cases hf : float v with
      | none =>
        simp only [itemOf, valueOf, truthy, hf, pure, Except.pure]
        rw [setKw_new hn']
        simp [Entry.name, Entry.val, hf]
      | some q =>
        simp only [itemOf, valueOf, truthy, hf, pure, Except.pure]
        rw [setKw_new hn']
        simp [Entry.name, Entry.val, hf]

theorem entries_fold : ∀ {es : List Entry} {d : Box}, (∀ e ∈ es, e.2.2 ≠ some []) → (d.map Prod.fst ++ es.map Entry.name).Nodup →
    (es.map Entry.elem).foldlM (fun b x => dataEntry float x b) d = .ok (d ++ es.map fun e => (e.name, e.val float))
  | [], d, _, _ => by simp [pure, Except.pure]
  | e :: es, d, h, hn => by
    have hd : e.name ∉ d.map Prod.fst := by
      rw [List.nodup_append] at hn
      intro hx
      exact hn.2.2 _ hx _ (by simp) rfl
    rw [List.map_cons, List.foldlM_cons, entry_step (h e (by simp)) hd]
    show List.foldlM _ (d ++ [(e.name, e.val float)]) _ = _
    rw [entries_fold (fun x hx => h x (List.mem_cons_of_mem _ hx)) (by simpa using hn)]
    simp

theorem getKw_mem_iff {α : Type} {k : Text} {v : α} : ∀ {d : List (Text × α)}, (d.map Prod.fst).Nodup → (getKw k d = some v ↔ (k, v) ∈ d)
  | [], _ => by simp [getKw]
  | (a, b) :: d, h => by
    rw [List.map_cons, List.nodup_cons] at h
    rw [getKw]
    by_cases ha : a = k
    · subst ha
      rw [if_pos rfl, List.mem_cons]
      constructor
      · intro e
        cases e
        exact Or.inl rfl
      · rintro (e | e)
        · cases e
          rfl
        · exact absurd (List.mem_map.2 ⟨_, e, rfl⟩) h.1
    · rw [if_neg ha, getKw_mem_iff h.2, List.mem_cons]
      constructor
      · exact Or.inr
      · rintro (e | e)
        · cases e
          exact absurd rfl ha
        · exact e

theorem says_val {es : List Entry} {e : Entry} (h : e ∈ es) : Says float (description es) [e.name] (e.val float) := by
  cases h1 : e.2.2 with
  | none =>
    have : e.val float = .text e.2.1 := by simp [Entry.val, h1]
    rw [this]
    exact .word h (Or.inl h1)
  | some u =>
    cases h2 : float e.2.1 with
    | none =>
      have : e.val float = .text e.2.1 := by simp [Entry.val, h1, h2]
      rw [this]
      exact .word h (Or.inr h2)
    | some q =>
      have : e.val float = .num q := by simp [Entry.val, h1, h2]
      rw [this]
      exact .number h h1 h2

theorem map_elem : ∀ {a b : List Entry}, a.map Entry.elem = b.map Entry.elem → a = b
  | [], [], _ => rfl
  | [], _ :: _, h => by cases h
  | _ :: _, [], h => by cases h
  | (x, y, z) :: a, (x', y', z') :: b, h => by
    rw [List.map_cons, List.map_cons] at h
    injection h with h1 h2
    simp only [Entry.elem, Elem.mk.injEq, List.cons.injEq, Option.some.injEq] at h1
    obtain ⟨-, -, ⟨-, rfl, -⟩, ⟨-, rfl, -⟩, ⟨-, rfl, -⟩, -⟩ := h1
    rw [map_elem h2]

theorem description_inj {a b : List Entry} (h : description a = description b) : a = b := by
  simp only [description, Elem.mk.injEq, List.cons.injEq] at h
  exact map_elem h.2.2.1.2.2

theorem description_says {es : List Entry} {p : List Text} {x : Val} (h : Says float (description es) p x) : ∃ e ∈ es, p = [e.name] ∧ x = e.val float := by
  generalize hE : description es = E at h
  cases h with
  | text => cases hE
  | node hs _ _ =>
    unfold description at hE
    injection hE with h1 _ _
    exact absurd (Or.inl h1.symm) hs
  | @number es' y u q hy h1 h2 =>
    obtain rfl := description_inj hE
    exact ⟨y, hy, rfl, by simp [Entry.val, h1, h2]⟩
  | @word es' y hy h1 =>
    obtain rfl := description_inj hE
    refine ⟨y, hy, rfl, ?_⟩
    rcases h1 with h1 | h1
    · simp [Entry.val, h1]
    · simp [Entry.val, h1]

/-! ### All elements -/

/-- The element at a path below an element. -/
inductive At : Elem → List Text → Elem → Prop
  | here {e : Elem} : At e [] e
  | node {tag : Text} {kids : List Elem} {k e : Elem} {p : List Text} : ¬ Special tag → k ∈ kids → At k p e → At (.mk tag none kids) (k.tag :: p) e

/-- What reading an element gives. -/
def Gives (float : Text → Option ℚ) (e : Elem) (v : Val) : Prop :=
  (∀ p x, IsLeaf x → (getPath p v = some x ↔ Says float e p x)) ∧
    (∀ p tag kids, At e p (.mk tag none kids) → ¬ Special tag → ∃ b, getPath p v = some (.box b) ∧ ∀ k, (getKw k b).isSome = true ↔ k ∈ kids.map Elem.tag) ∧
    ∀ p b, getPath p v = some (.box b) → Apart (b.map Prod.fst)

theorem all_kids : ∀ {kids : List Elem} {b : Box}, (∀ k ∈ kids, ∀ d : Box, k.tag ∉ d.map Prod.fst → ∃ v, fromXml float xml k d = .ok (d ++ [(k.tag, v)]) ∧ Gives float k v) →
    (b.map Prod.fst ++ kids.map Elem.tag).Nodup →
    ∃ r, fromAll float xml kids b = .ok (b ++ r) ∧ r.map Prod.fst = kids.map Elem.tag ∧ ∀ k ∈ kids, ∃ v, (k.tag, v) ∈ r ∧ Gives float k v
  | [], b, _, _ => ⟨[], by rw [fromAll, List.append_nil], rfl, by simp⟩
  | k :: kids, b, h, hn => by
    have hb : k.tag ∉ b.map Prod.fst := by
      rw [List.nodup_append] at hn
      intro hx
      exact hn.2.2 _ hx _ (by simp) rfl
    obtain ⟨v, e1, g⟩ := h k (by simp) b hb
    obtain ⟨r, e2, e3, e4⟩ := all_kids (kids := kids) (b := b ++ [(k.tag, v)]) (fun x hx => h x (List.mem_cons_of_mem _ hx)) (by simpa using hn)
    refine ⟨(k.tag, v) :: r, ?_, ?_, ?_⟩
    · rw [fromAll, e1]
      show fromAll float xml kids (b ++ [(k.tag, v)]) = _
      rw [e2]
      simp
    · rw [List.map_cons, List.map_cons, e3]
    · intro x hx
      rcases List.mem_cons.1 hx with rfl | hx
      · exact ⟨v, by simp, g⟩
      · obtain ⟨w, hw, gw⟩ := e4 x hx
        exact ⟨w, List.mem_cons_of_mem _ hw, gw⟩

theorem not_special {tag : Text} (h : ¬ Special tag) : tag ≠ "ExperimentalDescription".toList ∧ tag ≠ "TrueImageHeaderInfo".toList :=
  ⟨fun e => h (Or.inl e), fun e => h (Or.inr e)⟩

theorem node_new {tag : Text} {d : Box} (h : tag ∉ d.map Prod.fst) : node tag d = .box [] := by
  unfold node
  rw [getKw_none h]

theorem description_kids {es : List Entry} : entries (description es).kids = .ok (es.map Entry.elem) := by
  have : find "Root" (description es).kids = some (.mk "Root".toList none (es.map Entry.elem)) := rfl
  unfold entries
  rw [this]
  show Except.ok ((es.map Entry.elem).filter _) = _
  rw [List.filter_eq_self.2]
  intro x hx
  obtain ⟨⟨l, v, u⟩, -, rfl⟩ := List.mem_map.1 hx
  rfl

theorem good_reads {e : Elem} (h : Good e) : ∀ d : Box, e.tag ∉ d.map Prod.fst → ∃ v, fromXml float xml e d = .ok (d ++ [(e.tag, v)]) ∧ Gives float e v := by
  induction h with
  | @text tag t kids hs ht =>
    intro d hd
    replace hd : tag ∉ d.map Prod.fst := hd
    have hs := not_special hs
    refine ⟨.text t, ?_, ?_, ?_, ?_⟩
    · rw [fromXml.eq_def]
      dsimp only
      rw [if_neg hs.1, if_neg hs.2]
      cases t with
      | nil => exact absurd rfl ht
      | cons c t =>
        show Except.ok (setKw tag (.text (c :: t)) d) = _
        rw [setKw_new hd]
        rfl
    · intro p x _
      constructor
      · intro e
        cases p with
        | nil =>
          cases e
          exact .text
        | cons k p => cases e
      · intro e
        cases e with
        | text => rfl
    · intro p tag' kids' e
      cases e
    · intro p b e
      cases p with
      | nil => cases e
      | cons k p => cases e
  | @node tag kids hs hn hk ih =>
    intro d hd
    replace hd : tag ∉ d.map Prod.fst := hd
    have hs' := not_special hs
    have hn' := hn
    replace hn := apart_nodup hn
    obtain ⟨r, e1, e2, e3⟩ := all_kids (float := float) (xml := xml) (kids := kids) (b := []) ih (by simpa using hn)
    rw [List.nil_append] at e1
    have hr : (r.map Prod.fst).Nodup := by rw [e2]; exact hn
    refine ⟨.box r, ?_, ?_, ?_, ?_⟩
    · rw [fromXml.eq_def]
      dsimp only
      rw [if_neg hs'.1, if_neg hs'.2]
      simp only [truthy]
      rw [node_new hd]
      cases kids with
      | nil =>
        have : r = [] := List.map_eq_nil_iff.1 e2
        subst this
        show Except.ok (setKw tag (.box []) d) = _
        rw [setKw_new hd]
        rfl
      | cons k ks =>
        show (match fromAll float xml (k :: ks) [] with | .ok b => Except.ok (setKw tag (Val.box b) d) | .error e => Except.error e) = _
        rw [e1]
        show Except.ok (setKw tag (.box r) d) = _
        rw [setKw_new hd]
        rfl
    · intro p x hx
      cases p with
      | nil =>
        constructor
        · intro e
          exact absurd (Option.some.inj e).symm (hx r)
        · intro e
          cases e
      | cons k p =>
        rw [getPath]
        constructor
        · intro e
          cases hg : getKw k r with
          | none => rw [hg] at e; cases e
          | some v =>
            rw [hg] at e
            have hm := (getKw_mem_iff hr).1 hg
            have : k ∈ kids.map Elem.tag := by
              rw [← e2]
              exact List.mem_map.2 ⟨_, hm, rfl⟩
            obtain ⟨c, hc, rfl⟩ := List.mem_map.1 this
            obtain ⟨w, hw, gw⟩ := e3 c hc
            have := (getKw_mem_iff hr).2 hw
            rw [hg] at this
            cases this
            exact .node hs hc ((gw.1 p x hx).1 e)
        · intro e
          cases e with
          | node _ hc hsays =>
            obtain ⟨w, hw, gw⟩ := e3 _ hc
            rw [(getKw_mem_iff hr).2 hw]
            exact (gw.1 p x hx).2 hsays
          | number => exact absurd (Or.inl rfl) hs
          | word => exact absurd (Or.inl rfl) hs
    · intro p tag' kids' e hs2
      cases e with
      | here =>
        refine ⟨r, rfl, fun k => ?_⟩
        rw [← e2]
        constructor
        · intro hsome
          obtain ⟨v, hv⟩ := Option.isSome_iff_exists.1 hsome
          exact List.mem_map.2 ⟨_, (getKw_mem_iff hr).1 hv, rfl⟩
        · intro hk
          obtain ⟨⟨a, v⟩, hv, rfl⟩ := List.mem_map.1 hk
          rw [(getKw_mem_iff hr).2 hv]
          rfl
      | node _ hc hat =>
        obtain ⟨w, hw, gw⟩ := e3 _ hc
        rw [getPath, (getKw_mem_iff hr).2 hw]
        exact gw.2.1 _ _ _ hat hs2
    · intro p b e
      cases p with
      | nil =>
        cases e
        rw [e2]
        exact hn'
      | cons k p =>
        rw [getPath] at e
        cases hg : getKw k r with
        | none => rw [hg] at e; cases e
        | some v =>
          rw [hg] at e
          have hm := (getKw_mem_iff hr).1 hg
          have : k ∈ kids.map Elem.tag := by
            rw [← e2]
            exact List.mem_map.2 ⟨_, hm, rfl⟩
          obtain ⟨c, hc, rfl⟩ := List.mem_map.1 this
          obtain ⟨w, hw, gw⟩ := e3 c hc
          have := (getKw_mem_iff hr).2 hw
          rw [hg] at this
          cases this
          exact gw.2.2 p b e
  | @description es hu hn =>
    intro d hd
    have hn' := hn
    replace hn := apart_nodup hn
    have hl : ∀ (y : Entry) b, y.val float ≠ .box b := by
      intro y b
      unfold Entry.val
      split <;> simp
    have hr : ((es.map fun e => (e.name, e.val float)).map Prod.fst).Nodup := by
      rw [List.map_map]
      exact hn
    have ht : (description es).tag = "ExperimentalDescription".toList := rfl
    refine ⟨.box (es.map fun e => (e.name, e.val float)), ?_, ?_, ?_, ?_⟩
    · have : fromXml float xml (description es) d = experiment float (description es) d := by
        unfold description
        rw [fromXml.eq_def]
        dsimp only
        rw [if_pos rfl]
      rw [this]
      unfold experiment
      rw [description_kids, node_new hd]
      simp only [bind, Except.bind]
      rw [entries_fold hu (by simpa using hn)]
      show Except.ok (setKw _ _ d) = _
      rw [setKw_new hd]
      rfl
    · intro p x hx
      cases p with
      | nil =>
        constructor
        · intro e
          exact absurd (Option.some.inj e).symm (hx _)
        · intro e
          obtain ⟨y, -, e1, -⟩ := description_says e
          cases e1
      | cons k p =>
        rw [getPath]
        constructor
        · intro e
          cases hg : getKw k (es.map fun e => (e.name, e.val float)) with
          | none => rw [hg] at e; cases e
          | some v =>
            rw [hg] at e
            have hm := (getKw_mem_iff hr).1 hg
            obtain ⟨y, hy, e'⟩ := List.mem_map.1 hm
            cases e'
            cases p with
            | nil =>
              cases e
              exact says_val hy
            | cons a p =>
              cases hv : y.val float with
              | box b => exact absurd hv (hl y b)
              | none => rw [hv] at e; cases e
              | text t => rw [hv] at e; cases e
              | num q => rw [hv] at e; cases e
        · intro e
          obtain ⟨y, hy, e1, rfl⟩ := description_says e
          cases e1
          rw [(getKw_mem_iff hr).2 (List.mem_map.2 ⟨y, hy, rfl⟩)]
          rfl
    · intro p tag' kids' e hs
      generalize hE : description es = E at e
      cases e with
      | here =>
        unfold description at hE
        injection hE with h1 _ _
        exact absurd (Or.inl h1.symm) hs
      | node hs' _ _ =>
        unfold description at hE
        injection hE with h1 _ _
        exact absurd (Or.inl h1.symm) hs'
    · intro p b e
      cases p with
      | nil =>
        cases e
        rw [List.map_map]
        exact hn'
      | cons k p =>
        rw [getPath] at e
        cases hg : getKw k (es.map fun e => (e.name, e.val float)) with
        | none => rw [hg] at e; cases e
        | some v =>
          rw [hg] at e
          obtain ⟨y, hy, e'⟩ := List.mem_map.1 ((getKw_mem_iff hr).1 hg)
          cases e'
          cases hv : y.val float with
          | box b => exact absurd hv (hl y b)
          | none => rw [hv] at e; cases p <;> cases e
          | text t => rw [hv] at e; cases p <;> cases e
          | num q => rw [hv] at e; cases p <;> cases e

/-- C151, partial: all texts, and all entries of the description, with numbers for those with units, are in the original metadata at their paths, and no other
values are. Missing: elements with text around the elements in them, headers of images, entries without values. -/
theorem C151_values_partial {e : Elem} (h : Good e) :
    ∃ d, fromXml float xml e [] = .ok d ∧ ∀ p x, IsLeaf x → (getPath (e.tag :: p) (.box d) = some x ↔ Says float e p x) := by
  obtain ⟨v, e1, g, -⟩ := good_reads (float := float) (xml := xml) h [] (by simp)
  refine ⟨_, e1, fun p x hx => ?_⟩
  rw [getPath, List.nil_append, getKw, if_pos rfl]
  exact g p x hx

/-! ### Mapped metadata -/

theorem mapped_mem {o : Val} : ∀ {l : List ((String × String) × String × (Val → Py Val))} {m : List (Text × Val)}, mapped o l = .ok m →
    (∀ a ∈ m, ∃ e ∈ l, a.1 = e.2.1.toList) ∧ ∀ e ∈ l, ∀ v, source o e.1 = some v → ∃ x, e.2.2 v = .ok x ∧ (e.2.1.toList, x) ∈ m
  | [], m, h => by
    cases h
    simp
  | (k, p, f) :: l, m, h => by
    rw [mapped] at h
    cases hs : source o k with
    | none =>
      rw [hs] at h
      obtain ⟨h1, h2⟩ := mapped_mem (l := l) h
      refine ⟨fun a ha => ?_, ?_⟩
      · obtain ⟨e, he, e'⟩ := h1 a ha
        exact ⟨e, List.mem_cons_of_mem _ he, e'⟩
      · intro e he v hv
        rcases List.mem_cons.1 he with rfl | he
        · rw [hs] at hv; cases hv
        · exact h2 e he v hv
    | some w =>
      rw [hs] at h
      simp only [bind, Except.bind] at h
      cases hf : f w with
      | error x => rw [hf] at h; cases h
      | ok x =>
        cases hm : mapped o l with
        | error y => rw [hf, hm] at h; cases h
        | ok r =>
          rw [hf, hm] at h
          cases h
          obtain ⟨h1, h2⟩ := mapped_mem hm
          refine ⟨fun a ha => ?_, ?_⟩
          · rcases List.mem_cons.1 ha with rfl | ha
            · exact ⟨_, List.mem_cons_self .., rfl⟩
            · obtain ⟨e, he, e'⟩ := h1 a ha
              exact ⟨e, List.mem_cons_of_mem _ he, e'⟩
          · intro e he v hv
            rcases List.mem_cons.1 he with rfl | he
            · rw [hs] at hv
              cases hv
              exact ⟨x, hf, List.mem_cons_self ..⟩
            · obtain ⟨y, hy, hy'⟩ := h2 e he v hv
              exact ⟨y, hy, List.mem_cons_of_mem _ hy'⟩

theorem attr_box {name : String} {d : Box} : attr name (.box d) = getKw name.toList d := rfl

theorem path_box {k : Text} {p : List Text} {v x : Val} (h : getPath (k :: p) v = some x) : ∃ b w, v = .box b ∧ getKw k b = some w ∧ getPath p w = some x := by
  cases v with
  | none => cases h
  | text t => cases h
  | num q => cases h
  | box b =>
    rw [getPath] at h
    cases h1 : getKw k b with
    | none => rw [h1] at h; cases h
    | some w =>
      rw [h1] at h
      exact ⟨b, w, rfl, h1, h⟩

theorem getKw_slug {α : Type} {k n : Text} {v : α} {d : List (Text × α)} (ha : Apart (d.map Prod.fst)) (h : getKw k d = some v) (hk : Alike k n) :
    getKw (slug n) (d.map fun e => (slug e.1, e.2)) = some v := by
  have hn : ((d.map fun e => (slug e.1, e.2)).map Prod.fst).Nodup := by
    have := apart_iff.1 ha
    rw [List.map_map] at this ⊢
    exact this
  rw [getKw_mem_iff hn, ← slug_alike.2 hk]
  exact List.mem_map.2 ⟨_, (getKw_mem_iff (apart_nodup ha)).1 h, rfl⟩

theorem source_path {v : Val} {k : String × String} {n : Text} {x : Val} (h : getPath [k.1.toList, n] v = some x)
    (ha : ∀ p b, getPath p v = some (.box b) → Apart (b.map Prod.fst)) (hn : Alike n k.2.toList) : source (.box [("ObjectInfo".toList, v)]) k = some x := by
  obtain ⟨b, w, rfl, h1, h⟩ := path_box h
  obtain ⟨b', w', rfl, h2, h⟩ := path_box h
  cases h
  have h3 := ha [k.1.toList] b' (by rw [getPath, h1]; rfl)
  have ho : getKw "ObjectInfo".toList [("ObjectInfo".toList, Val.box b)] = some (.box b) := rfl
  unfold source
  simp only [attr_box, ho, h1, Option.bind_eq_bind, Option.bind_some]
  exact getKw_slug h3 h2 hn

variable {e : Elem} {m : List (Text × Val)}

/-- What the description of a file says, with blanks or underscores in the name. -/
def Describes (float : Text → Option ℚ) (e : Elem) (name : String) (x : Val) : Prop :=
  ∃ n, Alike n name.toList ∧ Says float e ["ExperimentalDescription".toList, n] x

theorem alike_refl (t : Text) : Alike t t := slug_alike.1 rfl

theorem leaf_num (q : ℚ) : IsLeaf (.num q) := fun _ h => by cases h

theorem leaf_text (t : Text) : IsLeaf (.text t) := fun _ h => by cases h

theorem map_one (h : Good e) (ht : e.tag = "ObjectInfo".toList) (hm : metadata float xml e = .ok m) {k : String × String} {p : String} {f : Val → Py Val}
    (hk : (k, p, f) ∈ mapping) {v : Val} (hl : IsLeaf v) {n : Text} (hn : Alike n k.2.toList) (hs : Says float e [k.1.toList, n] v) :
    ∃ x, f v = .ok x ∧ (p.toList, x) ∈ m := by
  obtain ⟨w, e1, g1, -, g3⟩ := good_reads (float := float) (xml := xml) h [] (by simp)
  unfold metadata at hm
  rw [e1, ht] at hm
  exact (mapped_mem hm).2 _ hk v (source_path ((g1 _ v hl).2 hs) g3 hn)

/-- C151: the metadata have the quantities of the file in the units of HyperSpy: the beam energy in kV, the camera length in mm, stage positions in mm, tilts in
degrees, the mode as STEM or TEM; and only known paths. -/
theorem C151_mapped (h : Good e) (ht : e.tag = "ObjectInfo".toList) (hm : metadata float xml e = .ok m) :
    (∀ q, Describes float e "High_tension_kV" (.num q) → ("Acquisition_instrument.TEM.beam_energy".toList, .num q) ∈ m) ∧
    (∀ q, Describes float e "Camera length_m" (.num q) → ("Acquisition_instrument.TEM.camera_length".toList, .num (q * 1000)) ∈ m) ∧
    (∀ q, Describes float e "Magnification_x" (.num q) → ("Acquisition_instrument.TEM.magnification".toList, .num q) ∈ m) ∧
    (∀ q, Describes float e "Stage_A_deg" (.num q) → ("Acquisition_instrument.TEM.Stage.tilt_alpha".toList, .num q) ∈ m) ∧
    (∀ q, Describes float e "Stage_B_deg" (.num q) → ("Acquisition_instrument.TEM.Stage.tilt_beta".toList, .num q) ∈ m) ∧
    (∀ q, Describes float e "Stage_X_um" (.num q) → ("Acquisition_instrument.TEM.Stage.x".toList, .num (q / 1000)) ∈ m) ∧
    (∀ q, Describes float e "Stage_Y_um" (.num q) → ("Acquisition_instrument.TEM.Stage.y".toList, .num (q / 1000)) ∈ m) ∧
    (∀ q, Describes float e "Stage_Z_um" (.num q) → ("Acquisition_instrument.TEM.Stage.z".toList, .num (q / 1000)) ∈ m) ∧
    (∀ t, Describes float e "User" (.text t) → ("General.authors".toList, .text t) ∈ m) ∧
    (∀ t, Describes float e "Mode" (.text t) → "STEM".toList <:+: t → ("Acquisition_instrument.TEM.acquisition_mode".toList, .text "STEM".toList) ∈ m) ∧
    (∀ t, Describes float e "Mode" (.text t) → ¬ "STEM".toList <:+: t → ("Acquisition_instrument.TEM.acquisition_mode".toList, .text "TEM".toList) ∈ m) ∧
    (∀ t, Says float e ["AcquireInfo".toList, "CameraNamePath".toList] (.text t) → ("Acquisition_instrument.TEM.Detector.Camera.Name".toList, .text t) ∈ m) := by
  have id : ∀ (n p : String) {v : Val}, (("ExperimentalDescription", n), p, Except.ok) ∈ mapping → IsLeaf v → Describes float e n v → (p.toList, v) ∈ m := by
    rintro n p v hk hl ⟨n', hn, hs⟩
    obtain ⟨x, hx, hx'⟩ := map_one h ht hm hk hl hn hs
    cases hx
    exact hx'
  have tm : ∀ (n p : String) (f : ℚ) {q : ℚ}, (("ExperimentalDescription", n), p, times f) ∈ mapping → Describes float e n (.num q) → (p.toList, .num (q * f)) ∈ m := by
    rintro n p f q hk ⟨n', hn, hs⟩
    obtain ⟨x, hx, hx'⟩ := map_one h ht hm hk (leaf_num q) hn hs
    cases hx
    exact hx'
  refine ⟨fun q hs => id "High_tension_kV" "Acquisition_instrument.TEM.beam_energy" (by simp [mapping]) (leaf_num q) hs,
    fun q hs => tm "Camera length_m" "Acquisition_instrument.TEM.camera_length" 1000 (by simp [mapping]) hs,
    fun q hs => id "Magnification_x" "Acquisition_instrument.TEM.magnification" (by simp [mapping]) (leaf_num q) hs,
    fun q hs => id "Stage_A_deg" "Acquisition_instrument.TEM.Stage.tilt_alpha" (by simp [mapping]) (leaf_num q) hs,
    fun q hs => id "Stage_B_deg" "Acquisition_instrument.TEM.Stage.tilt_beta" (by simp [mapping]) (leaf_num q) hs,
    fun q hs => ?_, fun q hs => ?_, fun q hs => ?_,
    fun t hs => id "User" "General.authors" (by simp [mapping]) (leaf_text t) hs, ?_, ?_, fun t hs => ?_⟩
  · have := tm "Stage_X_um" "Acquisition_instrument.TEM.Stage.x" (1 / 1000) (by simp [mapping]) hs
    rwa [mul_one_div] at this
  · have := tm "Stage_Y_um" "Acquisition_instrument.TEM.Stage.y" (1 / 1000) (by simp [mapping]) hs
    rwa [mul_one_div] at this
  · have := tm "Stage_Z_um" "Acquisition_instrument.TEM.Stage.z" (1 / 1000) (by simp [mapping]) hs
    rwa [mul_one_div] at this
  · rintro t ⟨n, hn, hs⟩ hp
    obtain ⟨x, hx, hx'⟩ := map_one h ht hm (k := ("ExperimentalDescription", "Mode")) (p := "Acquisition_instrument.TEM.acquisition_mode") (f := simplified) (by simp [mapping])
      (leaf_text t) hn hs
    have : simplified (.text t) = .ok (.text "STEM".toList) := by
      simp only [simplified, modeHas, within, decide_eq_true hp, bind, Except.bind]
      rfl
    rw [this] at hx
    cases hx
    exact hx'
  · rintro t ⟨n, hn, hs⟩ hp
    obtain ⟨x, hx, hx'⟩ := map_one h ht hm (k := ("ExperimentalDescription", "Mode")) (p := "Acquisition_instrument.TEM.acquisition_mode") (f := simplified) (by simp [mapping])
      (leaf_text t) hn hs
    have : simplified (.text t) = .ok (.text "TEM".toList) := by
      simp only [simplified, modeHas, within, decide_eq_false hp, bind, Except.bind]
      rfl
    rw [this] at hx
    cases hx
    exact hx'
  · obtain ⟨x, hx, hx'⟩ := map_one h ht hm (k := ("AcquireInfo", "CameraNamePath")) (p := "Acquisition_instrument.TEM.Detector.Camera.Name") (f := Except.ok) (by simp [mapping])
      (leaf_text t) (alike_refl _) hs
    cases hx
    exact hx'

/-- C151: the name of the microscope is that of the file without the word in front of it. -/
theorem C151_microscope {n : Text} (h : Good e) (ht : e.tag = "ObjectInfo".toList) (hm : metadata float xml e = .ok m)
    (hs : Describes float e "Microscope" (.text ("Microscope ".toList ++ n))) (hn : ¬ "Microscope ".toList <:+: n) :
    ("Acquisition_instrument.TEM.microscope".toList, .text n) ∈ m := by
  obtain ⟨n', hn', hs⟩ := hs
  obtain ⟨x, hx, hx'⟩ := map_one h ht hm (k := ("ExperimentalDescription", "Microscope")) (p := "Acquisition_instrument.TEM.microscope") (f := microscope) (by simp [mapping])
    (leaf_text _) hn' hs
  have key : ∀ (k : Nat) (n : Text), ¬ "Microscope ".toList <:+: n → dropName k n = n := by
    intro k
    induction k with
    | zero => intros; rfl
    | succ k ih =>
      intro n hn
      rw [dropName.eq_def]
      dsimp only
      rw [if_neg]
      · cases n with
        | nil => rfl
        | cons c r =>
          show c :: dropName k r = c :: r
          rw [ih r fun hx => hn (hx.trans (List.suffix_cons c r).isInfix)]
      · intro hp
        exact hn (List.isPrefixOf_iff_prefix.1 hp).isInfix
  have : dropName ("Microscope ".toList ++ n).length ("Microscope ".toList ++ n) = n := by
    obtain ⟨k, hk⟩ : ∃ k, ("Microscope ".toList ++ n).length = k + 1 := ⟨10 + n.length, by rw [List.length_append, show "Microscope ".toList.length = 11 from rfl]; omega⟩
    rw [hk, dropName.eq_def]
    dsimp only
    rw [if_pos (List.isPrefixOf_iff_prefix.2 (List.prefix_append _ _)), List.drop_left']
    · exact key _ _ hn
    · rfl
  rw [microscope, this] at hx
  cases hx
  exact hx'

/-! ### Units of images -/

/-- C152: images are in reciprocal space just if they are diffraction patterns: taken in STEM with a camera or at more than one place, or in another mode of diffraction. -/
theorem C152_units {mode : Text} {kids info : List Elem} {d : Box} {unitsLength size : Nat} (h : Good (.mk "ObjectInfo".toList none kids))
    (hd : fromXml float xml (.mk "ObjectInfo".toList none kids) [] = .ok d) (hm : Says float (.mk "ObjectInfo".toList none kids) ["ExperimentalDescription".toList, "Mode".toList] (.text mode))
    (ha : .mk "AcquireInfo".toList none info ∈ kids) :
    ∃ r, reciprocal (.box d) (some (unitsLength, size)) = .ok r ∧
      (r = true ↔ ("STEM".toList <:+: mode ∧ (("CameraNamePath".toList ∈ info.map Elem.tag) ∨ (1 < size ∧ 0 < unitsLength))) ∨
        (¬ "STEM".toList <:+: mode ∧ "Diffraction".toList <:+: mode)) := by
  obtain ⟨v, e1, g1, g2, -⟩ := good_reads (float := float) (xml := xml) h [] (by simp)
  rw [hd] at e1
  cases e1
  have m1 := (g1 _ _ (leaf_text mode)).2 hm
  have hns : ¬ Special "ObjectInfo".toList := by unfold Special; decide
  have hna : ¬ Special "AcquireInfo".toList := by unfold Special; decide
  obtain ⟨c, m2, m3⟩ := g2 _ _ _ (.node hns ha .here) hna
  obtain ⟨b, w, rfl, k1, m1⟩ := path_box m1
  obtain ⟨b2, w2, rfl, k2, m1⟩ := path_box m1
  cases m1
  obtain ⟨b', w', e, k3, m2⟩ := path_box m2
  cases e
  cases m2
  have k3 : getKw "AcquireInfo".toList b = some (.box c) := k3
  have ho : getKw "ObjectInfo".toList ([] ++ [(Elem.tag (.mk "ObjectInfo".toList none kids), Val.box b)]) = some (.box b) := rfl
  have hmode : modeOf (.box ([] ++ [(Elem.tag (.mk "ObjectInfo".toList none kids), Val.box b)])) = some (.text mode, (getKw "CameraNamePath".toList c).isSome) := by
    unfold modeOf
    simp only [attr_box, ho, k1, k2, k3, Option.bind_eq_bind, Option.bind_some]
  unfold reciprocal
  rw [hmode]
  simp only [modeHas, within, bind, Except.bind]
  by_cases hS : "STEM".toList <:+: mode
  · refine ⟨(getKw "CameraNamePath".toList c).isSome || (decide (size > 1) && decide (unitsLength ≠ 0)), ?_, ?_⟩
    · rw [decide_eq_true hS]
      rfl
    · rw [Bool.or_eq_true, m3, Bool.and_eq_true, decide_eq_true_iff, decide_eq_true_iff]
      constructor
      · rintro (h | ⟨h1, h2⟩)
        · exact Or.inl ⟨hS, Or.inl h⟩
        · exact Or.inl ⟨hS, Or.inr ⟨h1, Nat.pos_of_ne_zero h2⟩⟩
      · rintro (⟨_, h | ⟨h1, h2⟩⟩ | ⟨h, _⟩)
        · exact Or.inl h
        · exact Or.inr ⟨h1, Nat.pos_iff_ne_zero.1 h2⟩
        · exact absurd hS h
  · refine ⟨decide ("Diffraction".toList <:+: mode), ?_, ?_⟩
    · rw [decide_eq_false hS]
      rfl
    · rw [decide_eq_true_iff]
      constructor
      · intro h
        exact Or.inr ⟨hS, h⟩
      · rintro (⟨h, _⟩ | ⟨_, h⟩)
        · exact absurd h hS
        · exact h

/-- C152: without a mode or a dimension the images are in real space. -/
theorem C152_default (o : Val) : reciprocal o none = .ok false := by
  unfold reciprocal
  split
  · rename_i h
    cases h
  · rfl

/-- A file as the software writes it. -/
def sample (mode : String) (info : List Elem) : Elem :=
  .mk "ObjectInfo".toList none [.mk "Uuid".toList (some "A".toList) [],
    .mk "AcquireInfo".toList none info,
    description [("Microscope".toList, "Microscope Titan 300 kV".toList, none), ("High tension".toList, "300".toList, some "kV".toList), ("Mode".toList, mode.toList, none)]]

/-- `float` of two texts. -/
def floats (t : Text) : Option ℚ := if t = "300".toList then some 300 else none

theorem sample_good {mode : String} {info : List Elem} (h : Apart (info.map Elem.tag)) (h' : ∀ k ∈ info, Good k) : Good (sample mode info) := by
  refine .node (by unfold Special; decide) (apart_iff.2 (by simp [Elem.tag, description, slug])) ?_
  simp only [List.mem_cons, List.not_mem_nil, or_false]
  rintro k (rfl | rfl | rfl)
  · exact .text (by unfold Special; decide) (by simp)
  · exact .node (by unfold Special; decide) h h'
  · refine .description ?_ ?_
    · simp
    · exact apart_iff.2 (by simp [Entry.name, slug])

theorem sample_mode {mode : String} {info : List Elem} : Says floats (sample mode info) ["ExperimentalDescription".toList, "Mode".toList] (.text mode.toList) :=
  .node (k := description [("Microscope".toList, "Microscope Titan 300 kV".toList, none), ("High tension".toList, "300".toList, some "kV".toList), ("Mode".toList, mode.toList, none)])
    (by unfold Special; decide) (by simp) (.word (e := ("Mode".toList, mode.toList, none)) (by simp) (Or.inl rfl))

theorem sample_tension {mode : String} {info : List Elem} : Describes floats (sample mode info) "High_tension_kV" (.num 300) :=
  ⟨"High tension_kV".toList, slug_alike.1 (by decide),
    .node (k := description [("Microscope".toList, "Microscope Titan 300 kV".toList, none), ("High tension".toList, "300".toList, some "kV".toList), ("Mode".toList, mode.toList, none)])
      (by unfold Special; decide) (by simp) (.number (e := ("High tension".toList, "300".toList, some "kV".toList)) (u := "kV".toList) (by simp) rfl rfl)⟩

/-- The hypotheses can be met. -/
example : Good (sample "STEM nP" []) ∧ Describes floats (sample "STEM nP" []) "High_tension_kV" (.num 300) ∧
    Says floats (sample "STEM nP" []) ["ExperimentalDescription".toList, "Mode".toList] (.text "STEM nP".toList) :=
  ⟨sample_good .nil (by simp), sample_tension, sample_mode⟩

/-- The hypotheses can be met, and the metadata are read. -/
example : (metadata floats (fun _ => true) (sample "STEM nP" [])).map (fun m => m.map Prod.fst) =
    .ok ["Acquisition_instrument.TEM.beam_energy".toList, "Acquisition_instrument.TEM.microscope".toList, "Acquisition_instrument.TEM.acquisition_mode".toList] := by
  decide +kernel

/-- Camera images in STEM are diffraction patterns. -/
example : ∃ d, fromXml floats (fun _ => true) (sample "STEM nP" [.mk "CameraNamePath".toList (some "C".toList) []]) [] = .ok d ∧ reciprocal (.box d) (some (0, 1)) = .ok true :=
  ⟨_, rfl, rfl⟩

/-- Images of detectors in STEM are not. -/
example : ∃ d, fromXml floats (fun _ => true) (sample "STEM nP" []) [] = .ok d ∧ reciprocal (.box d) (some (0, 1)) = .ok false := ⟨_, rfl, rfl⟩

/-! ### What is not so -/

/-- C151 fails for a file with line breaks between elements: they are a text, and the elements in it are not read. -/
theorem C151_fails_blank {kids : List Elem} {t : Text} (ht : t ≠ []) : metadata float xml (.mk "ObjectInfo".toList (some t) kids) = .ok [] := by
  cases t with
  | nil => exact absurd rfl ht
  | cons c t => rfl

/-- C151 fails for an entry with units and no value: `float(None)` is a `TypeError`, which is not caught, and nothing of the file is read. -/
theorem C151_fails_empty {l u : Text} (hu : u ≠ []) :
    metadata float xml (.mk "ObjectInfo".toList none [.mk "ExperimentalDescription".toList none [.mk "Root".toList none
      [.mk "Data".toList none [.mk "Label".toList (some l) [], .mk "Value".toList none [], .mk "Unit".toList (some u) []]]]]) = .error .typeError := by
  cases u with
  | nil => exact absurd rfl hu
  | cons c u => rfl

/-- C151 fails for the exposure: it is a text, as it is in the file, and not a number. -/
theorem C151_fails_exposure : metadata floats xml (.mk "ObjectInfo".toList none [.mk "AcquireInfo".toList none [.mk "DwellTimePath".toList (some "300".toList) []]]) =
    .ok [("Acquisition_instrument.TEM.Detector.Camera.exposure".toList, .text "300".toList)] := by rfl

/-- C151 fails for a position that is no number: the metadata cannot be mapped. -/
theorem C151_fails_position {v : Text} (h : float v = none) :
    metadata float xml (.mk "ObjectInfo".toList none [description [("Stage X".toList, v, some "um".toList)]]) = .error .typeError := by
  have e : fromXml float xml (.mk "ObjectInfo".toList none [description [("Stage X".toList, v, some "um".toList)]]) [] =
      .ok [("ObjectInfo".toList, .box [("ExperimentalDescription".toList, .box [("Stage X_um".toList, .text v)])])] := by
    have hv : valueOf float (some v) (some "um".toList) = .ok (.text v) := by
      show (match float v with | some q => Except.ok (Val.num q) | none => .ok (.text v)) = _
      rw [h]
    have hd : dataEntry float (Entry.elem ("Stage X".toList, v, some "um".toList)) [] = .ok [("Stage X_um".toList, .text v)] := by
      show (valueOf float (some v) (some "um".toList) >>= fun x => Except.ok (setKw "Stage X_um".toList x [])) = _
      rw [hv]
      rfl
    have he : experiment float (description [("Stage X".toList, v, some "um".toList)]) [] =
        .ok [("ExperimentalDescription".toList, .box [("Stage X_um".toList, .text v)])] := by
      show ((dataEntry float (Entry.elem ("Stage X".toList, v, some "um".toList)) [] >>= fun b => Except.ok b) >>= fun b => Except.ok (setKw "ExperimentalDescription".toList (Val.box b) [])) = _
      rw [hd]
      rfl
    show (match (match experiment float (description [("Stage X".toList, v, some "um".toList)]) [] with | .ok b => fromAll float xml [] b | .error x => Except.error x) with
      | .ok b => Except.ok (setKw "ObjectInfo".toList (Val.box b) []) | .error e => Except.error e) = _
    rw [he]
    rfl
  unfold metadata
  rw [e]
  rfl

/-- C151 fails for `TrueImageHeaderInfo`: its entries are searched by bytes and none is found. -/
theorem C151_fails_true_image {t : Text} (h : xml t = true) : fromXml float xml (.mk "TrueImageHeaderInfo".toList (some t) []) [] =
    .ok [("TrueImageHeaderInfo".toList, .box [])] := by
  rw [fromXml.eq_def]
  dsimp only
  rw [if_neg (by decide), if_pos rfl, trueImage]
  show (if xml t then _ else _) = _
  rw [if_pos h]
  rfl

/-- C152 fails for a diffraction pattern in a file that does not have `AcquireInfo`: it is in real space. -/
theorem C152_fails_info : ∃ d, fromXml floats (fun _ => true) (.mk "ObjectInfo".toList none [description [("Mode".toList, "TEM uP SA Zoom Diffraction".toList, none)]]) [] = .ok d ∧
    reciprocal (.box d) (some (0, 1)) = .ok false := ⟨_, rfl, rfl⟩

end

end Verif.Props.TiaMeta
