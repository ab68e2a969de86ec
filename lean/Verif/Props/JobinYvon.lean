import Verif.Model.JobinYvon
import Verif.Lemmas.HamamatsuImage
/-!
C104: LabSpec files keep every intensity at its position and wavelength.
-/
namespace Verif.Props.JobinYvon
open Verif.JobinYvon
open Verif.Renishaw (fitAxis)
open Verif.Spec.Hamamatsu (deviation)

/-- The texts of the children with an `ID`. -/
def texts (id : String) (cs : List Leaf) : List Text := (cs.filter fun c => c.id = id.toList).map Leaf.text

/-- The children of the elements with an `ID`. -/
def parts (id : String) (cs : List Node) : List (List Leaf) := (cs.filter fun c => c.id = id.toList).map Node.children

/-- The positions along one direction of the scan; without an element there is one position. -/
def Along (nums : Text → List ℚ) (ps : List (List Leaf)) (l : List ℚ) : Prop :=
  1 ≤ l.length ∧ ((ps = [] ∧ l.length = 1) ∨ ∃ cs t, ps = [cs] ∧ texts "0x7D6CD4DB" cs = [t] ∧ nums t = l)

/-- A spectrum, line scan or map: wavelengths `ws` with units `u`, positions `xs` and `ys`, and
intensities by row, column and number of the wavelength in the file. -/
structure Scan (nums : Text → List ℚ) (f : File) (ws : List ℚ) (u : Text) (xs ys : List ℚ) (I : Nat → Nat → Nat → ℚ) : Prop where
  signal : ∃ cs t, parts "0x1" f.axes = [cs] ∧ texts "0x7D6CD4DB" cs = [t] ∧ nums t = ws ∧ texts "0x7C696E75" cs = [u]
  units : u ≠ []
  two : 2 ≤ ws.length
  x : Along nums (parts "0x2" f.axes) xs
  y : Along nums (parts "0x3" f.axes) ys
  rows : f.rows.length = ys.length * xs.length
  size : ∀ r ∈ f.rows, r.size = some (decChars ws.length)
  row : ∀ iy < ys.length, ∀ ix < xs.length, ∃ r, f.rows[iy * xs.length + ix]? = some r ∧
    nums r.text = (List.range ws.length).map (I iy ix)

/-- What units say about the quantity on the axis. -/
def Kind (u name units : Text) : Prop :=
  (∃ v, u = v ++ " abs".toList ∧ '/' ∈ v ∧ name = "Wavenumber".toList ∧ units = v) ∨
  (∃ v, u = v ++ "m".toList ∧ '/' ∈ v ∧ name = "Raman Shift".toList ∧ units = u) ∨
  (∃ v, u = v ++ "eV".toList ∧ name = "Energy".toList ∧ units = u) ∨
  (∃ v, u = v ++ "m".toList ∧ '/' ∉ v ∧ name = "Wavelength".toList ∧ units = u)

/-- The navigation axis of a direction: none for one position, else with the first two positions. -/
def Navs (ps : List (List Leaf)) (l : List ℚ) (as : List Axis) : Prop :=
  (l.length = 1 ∧ as = []) ∨ (2 ≤ l.length ∧ ∃ a cs, as = [.nav a] ∧ ps = [cs] ∧ a.size = l.length ∧
    l[0]? = some a.offset ∧ l[1]? = some (a.offset + a.scale) ∧
    a.name = (texts "0x6D707974" cs).getLast? ∧ a.units = (texts "0x7C696E75" cs).getLast?)

theorem foldl_proj {σ β γ : Type} (f : σ → γ → σ) (π : σ → β) (p : γ → Bool) (g : β → γ → β)
    (h1 : ∀ s c, p c = true → π (f s c) = g (π s) c) (h2 : ∀ s c, p c = false → π (f s c) = π s) :
    ∀ (cs : List γ) (s : σ), π (cs.foldl f s) = (cs.filter p).foldl g (π s)
  | [], _ => rfl
  | c :: cs, s => by
    rw [List.foldl_cons, foldl_proj f π p g h1 h2 cs, List.filter_cons]
    cases h : p c with
    | true => rw [h1 s c h]; rfl
    | false => rw [h2 s c h]; rfl

theorem foldlM_ok {σ γ : Type} {f : σ → γ → Py σ} {g : σ → γ → σ} : ∀ {cs : List γ},
    (∀ c ∈ cs, ∀ s, f s c = .ok (g s c)) → ∀ s, cs.foldlM f s = .ok (cs.foldl g s)
  | [], _, _ => rfl
  | c :: cs, h, s => by
    rw [List.foldlM_cons, h c (by simp) s]
    exact foldlM_ok (fun c hc => h c (by simp [hc])) (g s c)

theorem mapM_ok {α β : Type} {f : α → Py β} {g : α → β} : ∀ {l : List α}, (∀ a ∈ l, f a = .ok (g a)) →
    l.mapM f = .ok (l.map g)
  | [], _ => rfl
  | a :: l, h => by
    rw [List.mapM_cons, h a (by simp), mapM_ok (g := g) fun a ha => h a (by simp [ha])]
    rfl

theorem flatMap_getElem {α β : Type} {g : α → List β} {m : Nat} : ∀ {l : List α}, (∀ a ∈ l, (g a).length = m) →
    ∀ {i j : Nat} {a : α}, l[i]? = some a → j < m → (l.flatMap g)[i * m + j]? = (g a)[j]?
  | [], _, i, j, a, ha, _ => by simp at ha
  | b :: l, h, 0, j, a, ha, hj => by
    simp only [List.getElem?_cons_zero, Option.some.injEq] at ha
    subst ha
    rw [List.flatMap_cons, Nat.zero_mul, Nat.zero_add, List.getElem?_append_left]
    rw [h b (by simp)]
    exact hj
  | b :: l, h, i + 1, j, a, ha, hj => by
    rw [List.getElem?_cons_succ] at ha
    have hb := h b (by simp)
    rw [List.flatMap_cons, Nat.succ_mul, List.getElem?_append_right (by omega)]
    have : i * m + m + j - (g b).length = i * m + j := by omega
    rw [this]
    exact flatMap_getElem (fun a ha => h a (by simp [ha])) ha hj

theorem flatMap_length {α β : Type} {g : α → List β} {m : Nat} : ∀ {l : List α}, (∀ a ∈ l, (g a).length = m) →
    (l.flatMap g).length = l.length * m
  | [], _ => by simp
  | b :: l, h => by
    rw [List.flatMap_cons, List.length_append, h b (by simp), flatMap_length fun a ha => h a (by simp [ha]), List.length_cons]
    ring

/-! ### Parts -/

theorem mem_parts {id : String} {cs : List Node} {l : List Leaf} (h : parts id cs = [l]) {c : Node} (hc : c ∈ cs)
    (hi : c.id = id.toList) : c.children = l := by
  have : c.children ∈ parts id cs := List.mem_map.2 ⟨c, List.mem_filter.2 ⟨hc, decide_eq_true hi⟩, rfl⟩
  rw [h] at this
  simpa using this

theorem not_parts {id : String} {cs : List Node} (h : parts id cs = []) {c : Node} (hc : c ∈ cs) : c.id ≠ id.toList := by
  intro hi
  have : c.children ∈ parts id cs := List.mem_map.2 ⟨c, List.mem_filter.2 ⟨hc, decide_eq_true hi⟩, rfl⟩
  rw [h] at this
  cases this

theorem signalUnits_ok {u : Text} (h : u ≠ []) : ∃ n m, signalUnits u = .ok (n, m) := by
  unfold signalUnits
  have : u.isEmpty = false := by cases u with | nil => exact absurd rfl h | cons => rfl
  rw [this]
  split_ifs <;> first | exact ⟨_, _, rfl⟩ | contradiction

theorem signalUnits_kind {u n m : Text} (h : Kind u n m) : signalUnits u = .ok (n, m) := by
  rcases h with ⟨v, rfl, h1, rfl, rfl⟩ | ⟨v, rfl, h1, rfl, rfl⟩ | ⟨v, rfl, rfl, rfl⟩ | ⟨v, rfl, h1, rfl, rfl⟩
  · unfold signalUnits
    have e : m ++ " abs".toList = (m ++ [' ']) ++ "abs".toList := by simp
    rw [if_pos ⟨by simp [h1], by
      rw [e, List.drop_append]
      simp⟩]
    simp
  · unfold signalUnits
    rw [if_neg (fun e => ?_), if_pos ⟨by simp [h1], by simp⟩]
    have := congrArg List.getLast? e.2
    rw [List.getLast?_drop] at this
    simp at this
  · unfold signalUnits
    rw [if_neg (fun e => ?_), if_neg (fun e => ?_), if_pos (by simp)]
    · simp [List.getLast?_append] at e
    · have := congrArg List.getLast? e.2
      rw [List.getLast?_drop] at this
      simp [List.getLast?_append] at this
  · unfold signalUnits
    rw [if_neg (fun e => ?_), if_neg (fun e => ?_), if_neg (fun e => ?_), if_neg (by simp)]
    · have := congrArg List.getLast? e
      rw [List.getLast?_drop] at this
      simp at this
    · simp [h1] at e
    · simp [h1] at e

/-- What the children of the signal axis say. -/
theorem signal_fold (nums : Text → List ℚ) (uniform : Bool) {cs : List Leaf} {t u n m : Text} (hv : texts "0x7D6CD4DB" cs = [t])
    (hu : texts "0x7C696E75" cs = [u]) (hk : signalUnits u = .ok (n, m)) (r0 : Option Bool) :
    ∃ a, cs.foldlM (signalChild nums uniform) ({}, r0) = .ok (a, ((signalCal uniform (nums t)).2).or r0) ∧
      a.cal = some (signalCal uniform (nums t)).1 ∧ a.name = some n ∧ a.units = some m := by
  obtain ⟨cv, ev, rfl⟩ : ∃ c, cs.filter (fun c => c.id = "0x7D6CD4DB".toList) = [c] ∧ c.text = t := by
    unfold texts at hv
    rw [List.map_eq_singleton_iff] at hv
    exact hv
  obtain ⟨cu, eu, rfl⟩ : ∃ c, cs.filter (fun c => c.id = "0x7C696E75".toList) = [c] ∧ c.text = u := by
    unfold texts at hu
    rw [List.map_eq_singleton_iff] at hu
    exact hu
  let g : SigAxis × Option Bool → Leaf → SigAxis × Option Bool := fun st c =>
    if c.id = idValues then ({ st.1 with cal := some (signalCal uniform (nums c.text)).1 }, ((signalCal uniform (nums c.text)).2).or st.2)
    else if c.id = idUnits then ({ st.1 with name := some n, units := some m }, st.2) else st
  have hg : ∀ c ∈ cs, ∀ s, signalChild nums uniform s c = .ok (g s c) := by
    intro c hc s
    unfold signalChild
    show _ = Except.ok (if _ then _ else _)
    by_cases h1 : c.id = idValues
    · rw [if_pos h1, if_pos h1]
      dsimp only
      cases (signalCal uniform (nums c.text)).2 <;> rfl
    · rw [if_neg h1, if_neg h1]
      by_cases h2 : c.id = idUnits
      · have : c ∈ cs.filter (fun c => c.id = "0x7C696E75".toList) := List.mem_filter.2 ⟨hc, decide_eq_true h2⟩
        rw [eu, List.mem_singleton] at this
        subst this
        rw [if_pos h2, if_pos h2, hk]
      · rw [if_neg h2, if_neg h2]
  have hne : idValues ≠ idUnits := by decide
  have p1 := foldl_proj g (fun s => (s.1.cal, s.2)) (fun c => c.id = "0x7D6CD4DB".toList)
    (fun b c => (some (signalCal uniform (nums c.text)).1, ((signalCal uniform (nums c.text)).2).or b.2))
    (fun s c h => by
      have h : c.id = idValues := of_decide_eq_true h
      show (_, _) = _
      simp only [g, if_pos h])
    (fun s c h => by
      have h : ¬ c.id = idValues := of_decide_eq_false h
      simp only [g, if_neg h]
      split_ifs <;> rfl) cs ({}, r0)
  have p2 := foldl_proj g (fun s => (s.1.name, s.1.units)) (fun c => c.id = "0x7C696E75".toList)
    (fun _ _ => (some n, some m))
    (fun s c h => by
      have h : c.id = idUnits := of_decide_eq_true h
      have h' : ¬ c.id = idValues := fun e => hne (e.symm.trans h)
      simp only [g, if_neg h', if_pos h])
    (fun s c h => by
      have h : ¬ c.id = idUnits := of_decide_eq_false h
      simp only [g, if_neg h]
      split_ifs <;> rfl) cs ({}, r0)
  rw [ev] at p1
  rw [eu] at p2
  simp only [List.foldl_cons, List.foldl_nil, Prod.mk.injEq] at p1 p2
  refine ⟨(cs.foldl g ({}, r0)).1, ?_, p1.1, p2.1, p2.2⟩
  rw [foldlM_ok hg, ← p1.2]

theorem signalCal_two (uniform : Bool) {l : List ℚ} (h : 2 ≤ l.length) : ∃ l' b, signalCal uniform l =
    (if uniform then .uniform (fitAxis l').1 (fitAxis l').2 l'.length else .values l', some b) ∧
    l' = (if b then l.reverse else l) ∧ (b = true ↔ ∃ x y, l[0]? = some x ∧ l[1]? = some y ∧ y < x) := by
  match l, h with
  | a :: b :: l, _ =>
    refine ⟨if a > b then (a :: b :: l).reverse else a :: b :: l, decide (a > b), ?_, ?_, ?_⟩
    · rfl
    · by_cases h : a > b <;> simp [h]
    · simp

/-- What the children of a navigation axis say. -/
theorem nav_fold (nums : Text → List ℚ) {cs : List Leaf} {t : Text} (hv : texts "0x7D6CD4DB" cs = [t]) :
    ∃ a, navAxis nums cs = .ok (if 2 ≤ (nums t).length then some a else none, (nums t).length) ∧
      (2 ≤ (nums t).length → a.size = (nums t).length ∧ (nums t)[0]? = some a.offset ∧ (nums t)[1]? = some (a.offset + a.scale)) ∧
      a.name = (texts "0x6D707974" cs).getLast? ∧ a.units = (texts "0x7C696E75" cs).getLast? := by
  obtain ⟨cv, ev, rfl⟩ : ∃ c, cs.filter (fun c => c.id = "0x7D6CD4DB".toList) = [c] ∧ c.text = t := by
    unfold texts at hv
    rw [List.map_eq_singleton_iff] at hv
    exact hv
  have h12 : idType ≠ idUnits := by decide
  have h13 : idType ≠ idValues := by decide
  have h23 : idUnits ≠ idValues := by decide
  have last : ∀ (l : List Leaf) (o : Option Text), l.foldl (fun _ c => some c.text) o = ((l.map Leaf.text).getLast?).or o := by
    intro l
    induction l with
    | nil => intro o; rfl
    | cons c l ih =>
      intro o
      rw [List.foldl_cons, ih, List.map_cons, List.getLast?_cons]
      cases (l.map Leaf.text).getLast? <;> rfl
  have p1 := foldl_proj (navChild nums) (fun s => s.1.name) (fun c => c.id = "0x6D707974".toList) (fun _ c => some c.text)
    (fun s c h => by
      have h : c.id = idType := of_decide_eq_true h
      simp only [navChild, if_pos h])
    (fun s c h => by
      have h : ¬ c.id = idType := of_decide_eq_false h
      simp only [navChild, if_neg h]
      split_ifs
      · rfl
      · split <;> rfl
      · rfl) cs ({}, true, none)
  have p2 := foldl_proj (navChild nums) (fun s => s.1.units) (fun c => c.id = "0x7C696E75".toList) (fun _ c => some c.text)
    (fun s c h => by
      have h : c.id = idUnits := of_decide_eq_true h
      have h' : ¬ c.id = idType := fun e => h12 (e.symm.trans h)
      simp only [navChild, if_neg h', if_pos h])
    (fun s c h => by
      have h : ¬ c.id = idUnits := of_decide_eq_false h
      simp only [navChild, if_neg h]
      split_ifs
      · rfl
      · split <;> rfl
      · rfl) cs ({}, true, none)
  let V : NavAxis × Bool × Option Nat → (ℚ × ℚ × Nat) × Bool × Option Nat := fun s => ((s.1.offset, s.1.scale, s.1.size), s.2)
  have p3 := foldl_proj (navChild nums) V (fun c => c.id = "0x7D6CD4DB".toList)
    (fun b c => V (navChild nums ({ offset := b.1.1, scale := b.1.2.1, size := b.1.2.2 }, b.2) ⟨idValues, c.text⟩))
    (fun s c h => by
      have h : c.id = idValues := of_decide_eq_true h
      have h1 : ¬ c.id = idType := fun e => h13 (e.symm.trans h)
      have h2 : ¬ c.id = idUnits := fun e => h23 (e.symm.trans h)
      simp only [navChild, if_neg h1, if_neg h2, if_pos h, if_neg h13.symm, if_neg h23.symm, if_true, V]
      split <;> rfl)
    (fun s c h => by
      have h : ¬ c.id = idValues := of_decide_eq_false h
      simp only [navChild, if_neg h]
      split_ifs <;> rfl) cs ({}, true, none)
  rw [ev] at p3
  rw [last] at p1 p2
  simp only [List.foldl_cons, List.foldl_nil, V, navChild, if_neg h13.symm, if_neg h23.symm, if_true] at p3
  unfold navAxis
  obtain ⟨⟨a, has, n⟩, hs⟩ : ∃ s, cs.foldl (navChild nums) ({}, true, none) = s := ⟨_, rfl⟩
  rw [hs] at p1 p2 p3 ⊢
  refine ⟨a, ?_⟩
  have e1 : a.name = (texts "0x6D707974" cs).getLast? := by rw [p1]; unfold texts; simp
  have e2 : a.units = (texts "0x7C696E75" cs).getLast? := by rw [p2]; unfold texts; simp
  match hl : nums cv.text with
  | [] =>
    rw [hl] at p3
    simp only [Prod.mk.injEq] at p3
    obtain ⟨_, h2, h3⟩ := p3
    subst h2 h3
    exact ⟨rfl, fun h => by simp at h, e1, e2⟩
  | [x] =>
    rw [hl] at p3
    simp only [Prod.mk.injEq] at p3
    obtain ⟨_, h2, h3⟩ := p3
    subst h2 h3
    exact ⟨rfl, fun h => by simp at h, e1, e2⟩
  | x :: y :: l =>
    rw [hl] at p3
    simp only [Prod.mk.injEq] at p3
    obtain ⟨⟨h4, h5, h6⟩, h2, h3⟩ := p3
    subst h2 h3
    refine ⟨?_, fun _ => ⟨h6, by simp [h4], by simp [h4, h5]⟩, e1, e2⟩
    simp

/-- What the element of a direction says: the axis and the number of values. -/
theorem along_fold {nums : Text → List ℚ} {cs : List Node} {id : String} {l : List ℚ} (h : Along nums (parts id cs) l) :
    ∃ o : Option NavAxis, Navs (parts id cs) l (o.toList.map Axis.nav) ∧ (o.isSome = decide (2 ≤ l.length)) ∧
      (∀ c ∈ cs, c.id = id.toList → navAxis nums c.children = .ok (o, l.length)) ∧ (parts id cs = [] → o = none ∧ l.length = 1) := by
  obtain ⟨h1, ⟨h2, h3⟩ | ⟨ch, t, h2, h3, rfl⟩⟩ := h
  · exact ⟨none, Or.inl ⟨h3, rfl⟩, by simp [h3], fun c hc hi => absurd hi (not_parts h2 hc), fun _ => ⟨rfl, h3⟩⟩
  · obtain ⟨a, ha, hb, hc, hd⟩ := nav_fold nums h3
    by_cases hl : 2 ≤ (nums t).length
    · obtain ⟨b1, b2, b3⟩ := hb hl
      refine ⟨some a, Or.inr ⟨hl, a, ch, rfl, h2, b1, b2, b3, hc, hd⟩, by simp [hl], fun c hc hi => ?_, fun e => ?_⟩
      · rw [mem_parts h2 hc hi, ha, if_pos hl]
      · rw [h2] at e; cases e
    · refine ⟨none, Or.inl ⟨by omega, rfl⟩, by simp [hl], fun c hc hi => ?_, fun e => ?_⟩
      · rw [mem_parts h2 hc hi, ha, if_neg hl]
      · rw [h2] at e; cases e

theorem filter_parts {id : String} {cs : List Node} {l : List Leaf} (h : parts id cs = [l]) :
    ∃ c, cs.filter (fun c => c.id = id.toList) = [c] ∧ c.children = l ∧ c.id = id.toList := by
  unfold parts at h
  rw [List.map_eq_singleton_iff] at h
  obtain ⟨c, h1, h2⟩ := h
  refine ⟨c, h1, h2, ?_⟩
  have : c ∈ cs.filter (fun c => c.id = id.toList) := by rw [h1]; exact List.mem_singleton_self c
  exact of_decide_eq_true (List.mem_filter.1 this).2

theorem filter_none {id : String} {cs : List Node} (h : parts id cs = []) :
    cs.filter (fun c => c.id = id.toList) = [] := by
  unfold parts at h
  exact List.map_eq_nil_iff.1 h

/-- What all axes say. -/
theorem axes_fold {nums : Text → List ℚ} {f : File} {ws : List ℚ} {u : Text} {xs ys : List ℚ} {I : Nat → Nat → Nat → ℚ}
    (uniform : Bool) (h : Scan nums f ws u xs ys I) {n m : Text} (hk : signalUnits u = .ok (n, m)) :
    ∃ st s ox oy, f.axes.foldlM (axisChild nums uniform) {} = .ok st ∧ st.signal = some s ∧
      s.cal = some (signalCal uniform ws).1 ∧ s.name = some n ∧ s.units = some m ∧ st.reverse = (signalCal uniform ws).2 ∧
      st.nav1 = ox ∧ st.nav2 = oy ∧ st.has1 = ox.isSome ∧ st.has2 = oy.isSome ∧
      (ox.isSome = true → st.size1 = xs.length) ∧ (oy.isSome = true → st.size2 = ys.length) ∧
      Navs (parts "0x2" f.axes) xs (ox.toList.map Axis.nav) ∧ Navs (parts "0x3" f.axes) ys (oy.toList.map Axis.nav) ∧
      ox.isSome = decide (2 ≤ xs.length) ∧ oy.isSome = decide (2 ≤ ys.length) := by
  obtain ⟨cs, t, h1, h2, rfl, h3⟩ := h.signal
  obtain ⟨ox, hx1, hx2, hx3, hx4⟩ := along_fold h.x
  obtain ⟨oy, hy1, hy2, hy3, hy4⟩ := along_fold h.y
  have n01 : "0x0".toList ≠ "0x1".toList := by decide
  have n02 : "0x0".toList ≠ "0x2".toList := by decide
  have n03 : "0x0".toList ≠ "0x3".toList := by decide
  have n12 : "0x1".toList ≠ "0x2".toList := by decide
  have n13 : "0x1".toList ≠ "0x3".toList := by decide
  have n23 : "0x2".toList ≠ "0x3".toList := by decide
  let sg : Option Bool → Py (SigAxis × Option Bool) := fun r => cs.foldlM (signalChild nums uniform) ({}, r)
  let g : Axes → Node → Axes := fun st c =>
    if c.id = "0x0".toList then c.children.foldl typeChild st
    else if c.id = "0x1".toList then
      match sg st.reverse with
      | .error _ => st
      | .ok (a, r) => { st with signal := some a, reverse := r }
    else if c.id = "0x2".toList then { st with nav1 := ox.or st.nav1, has1 := ox.isSome, size1 := xs.length }
    else if c.id = "0x3".toList then { st with nav2 := oy.or st.nav2, has2 := oy.isSome, size2 := ys.length }
    else st
  have hg : ∀ c ∈ f.axes, ∀ st, axisChild nums uniform st c = .ok (g st c) := by
    intro c hc st
    unfold axisChild
    simp only [g]
    by_cases c0 : c.id = "0x0".toList
    · rw [if_pos c0, if_pos c0]
    · rw [if_neg c0, if_neg c0]
      by_cases c1 : c.id = "0x1".toList
      · rw [if_pos c1, if_pos c1, mem_parts h1 hc c1]
        obtain ⟨a, ha, _⟩ := signal_fold nums uniform h2 h3 hk st.reverse
        simp only [sg, ha]
      · rw [if_neg c1, if_neg c1]
        by_cases c2 : c.id = "0x2".toList
        · rw [if_pos c2, if_pos c2, hx3 c hc c2]
        · rw [if_neg c2, if_neg c2]
          by_cases c3 : c.id = "0x3".toList
          · rw [if_pos c3, if_pos c3, hy3 c hc c3]
          · rw [if_neg c3, if_neg c3]
  have type_keeps : ∀ (l : List Leaf) (st : Axes),
      (l.foldl typeChild st).signal = st.signal ∧ (l.foldl typeChild st).reverse = st.reverse ∧
      (l.foldl typeChild st).nav1 = st.nav1 ∧ (l.foldl typeChild st).nav2 = st.nav2 ∧
      (l.foldl typeChild st).has1 = st.has1 ∧ (l.foldl typeChild st).has2 = st.has2 ∧
      (l.foldl typeChild st).size1 = st.size1 ∧ (l.foldl typeChild st).size2 = st.size2 := by
    intro l
    induction l with
    | nil => intro st; exact ⟨rfl, rfl, rfl, rfl, rfl, rfl, rfl, rfl⟩
    | cons c l ih =>
      intro st
      obtain ⟨a1, a2, a3, a4, a5, a6, a7, a8⟩ := ih (typeChild st c)
      rw [List.foldl_cons, a1, a2, a3, a4, a5, a6, a7, a8]
      unfold typeChild
      split_ifs <;> exact ⟨rfl, rfl, rfl, rfl, rfl, rfl, rfl, rfl⟩
  have ps := foldl_proj g (fun st => (st.signal, st.reverse)) (fun c => c.id = "0x1".toList)
    (fun b _ => match sg b.2 with
      | .error _ => b
      | .ok (a, r) => (some a, r))
    (fun st c e => by
      have e : c.id = "0x1".toList := of_decide_eq_true e
      have e0 : ¬ c.id = "0x0".toList := fun z => n01 (z.symm.trans e)
      simp only [g, if_neg e0, if_pos e]
      cases sg st.reverse <;> rfl)
    (fun st c e => by
      have e : ¬ c.id = "0x1".toList := of_decide_eq_false e
      simp only [g, if_neg e]
      split_ifs
      · obtain ⟨a1, a2, _⟩ := type_keeps c.children st
        rw [a1, a2]
      · rfl
      · rfl
      · rfl) f.axes {}
  have p1 := foldl_proj g (fun st => (st.nav1, st.has1, st.size1)) (fun c => c.id = "0x2".toList)
    (fun b _ => (ox.or b.1, ox.isSome, xs.length))
    (fun st c e => by
      have e : c.id = "0x2".toList := of_decide_eq_true e
      have e0 : ¬ c.id = "0x0".toList := fun z => n02 (z.symm.trans e)
      have e1 : ¬ c.id = "0x1".toList := fun z => n12 (z.symm.trans e)
      simp only [g, if_neg e0, if_neg e1, if_pos e])
    (fun st c e => by
      have e : ¬ c.id = "0x2".toList := of_decide_eq_false e
      simp only [g, if_neg e]
      split_ifs
      · obtain ⟨_, _, a3, _, a5, _, a7, _⟩ := type_keeps c.children st
        rw [a3, a5, a7]
      · split <;> rfl
      · rfl
      · rfl) f.axes {}
  have p2 := foldl_proj g (fun st => (st.nav2, st.has2, st.size2)) (fun c => c.id = "0x3".toList)
    (fun b _ => (oy.or b.1, oy.isSome, ys.length))
    (fun st c e => by
      have e : c.id = "0x3".toList := of_decide_eq_true e
      have e0 : ¬ c.id = "0x0".toList := fun z => n03 (z.symm.trans e)
      have e1 : ¬ c.id = "0x1".toList := fun z => n13 (z.symm.trans e)
      have e2 : ¬ c.id = "0x2".toList := fun z => n23 (z.symm.trans e)
      simp only [g, if_neg e0, if_neg e1, if_neg e2, if_pos e])
    (fun st c e => by
      have e : ¬ c.id = "0x3".toList := of_decide_eq_false e
      simp only [g, if_neg e]
      split_ifs
      · obtain ⟨_, _, _, a4, _, a6, _, a8⟩ := type_keeps c.children st
        rw [a4, a6, a8]
      · split <;> rfl
      · rfl
      · rfl) f.axes {}
  obtain ⟨a, ha, hc1, hc2, hc3⟩ := signal_fold nums uniform h2 h3 hk none
  obtain ⟨c, hf, _, _⟩ := filter_parts h1
  rw [hf] at ps
  simp only [List.foldl_cons, List.foldl_nil, sg, ha, Prod.mk.injEq, Option.or_none] at ps
  have q1 : (f.axes.foldl g {}).nav1 = ox ∧ (f.axes.foldl g {}).has1 = ox.isSome ∧
      (ox.isSome = true → (f.axes.foldl g {}).size1 = xs.length) := by
    rcases h.x.2 with ⟨e, _⟩ | ⟨cx, tx, e, _⟩
    · rw [filter_none e] at p1
      simp only [List.foldl_nil, Prod.mk.injEq] at p1
      rw [(hx4 e).1, p1.1, p1.2.1]
      exact ⟨rfl, rfl, fun e => by cases e⟩
    · obtain ⟨c', hf', _, _⟩ := filter_parts e
      rw [hf'] at p1
      simp only [List.foldl_cons, List.foldl_nil, Prod.mk.injEq, Option.or_none] at p1
      exact ⟨p1.1, p1.2.1, fun _ => p1.2.2⟩
  have q2 : (f.axes.foldl g {}).nav2 = oy ∧ (f.axes.foldl g {}).has2 = oy.isSome ∧
      (oy.isSome = true → (f.axes.foldl g {}).size2 = ys.length) := by
    rcases h.y.2 with ⟨e, _⟩ | ⟨cx, tx, e, _⟩
    · rw [filter_none e] at p2
      simp only [List.foldl_nil, Prod.mk.injEq] at p2
      rw [(hy4 e).1, p2.1, p2.2.1]
      exact ⟨rfl, rfl, fun e => by cases e⟩
    · obtain ⟨c', hf', _, _⟩ := filter_parts e
      rw [hf'] at p2
      simp only [List.foldl_cons, List.foldl_nil, Prod.mk.injEq, Option.or_none] at p2
      exact ⟨p2.1, p2.2.1, fun _ => p2.2.2⟩
  exact ⟨f.axes.foldl g {}, a, ox, oy, foldlM_ok hg {}, ps.1, hc1, hc2, hc3, ps.2, q1.1, q2.1, q1.2.1, q2.2.1, q1.2.2, q2.2.2,
    hx1, hy1, hx2, hy2⟩

/-- What the rows say. -/
theorem rows_data {nums : Text → List ℚ} {f : File} {ws : List ℚ} {u : Text} {xs ys : List ℚ} {I : Nat → Nat → Nat → ℚ}
    (h : Scan nums f ws u xs ys I) {st : Axes} {b : Bool} (hr : st.reverse = some b)
    (h1 : st.has1 = decide (2 ≤ xs.length)) (h2 : st.has2 = decide (2 ≤ ys.length))
    (s1 : st.has1 = true → st.size1 = xs.length) (s2 : st.has2 = true → st.size2 = ys.length) :
    ∃ data, getData nums st f.rows = .ok ((if ys.length = 1 then [] else [ys.length]) ++ (if xs.length = 1 then [] else [xs.length]) ++ [ws.length], data) ∧
      data.length = ys.length * xs.length * ws.length ∧
      ∀ iy < ys.length, ∀ ix < xs.length, ∀ k < ws.length,
        data[(iy * xs.length + ix) * ws.length + (if b then ws.length - 1 - k else k)]? = some (I iy ix k) := by
  have hx := h.x.1
  have hy := h.y.1
  have hlen : ∀ r ∈ f.rows, (nums r.text).length = ws.length := by
    intro r hr
    obtain ⟨j, hj, rfl⟩ := List.getElem_of_mem hr
    have hj' := hj
    rw [h.rows] at hj'
    obtain ⟨r', e1, e2⟩ := h.row (j / xs.length) (Nat.div_lt_of_lt_mul (by rwa [Nat.mul_comm]))
      (j % xs.length) (Nat.mod_lt _ hx)
    rw [Nat.div_add_mod', List.getElem?_eq_getElem hj] at e1
    injection e1 with e1
    rw [e1, e2]
    simp
  have hg : ∀ r ∈ f.rows, (if b then (nums r.text).reverse else nums r.text).length = ws.length := by
    intro r hrow
    cases b <;> simp [hlen r hrow]
  have val : ∀ iy < ys.length, ∀ ix < xs.length, ∀ k < ws.length,
      (f.rows.flatMap fun r => if b then (nums r.text).reverse else nums r.text)[(iy * xs.length + ix) * ws.length + (if b then ws.length - 1 - k else k)]? =
        some (I iy ix k) := by
    intro iy hiy ix hix k hk
    obtain ⟨r, e1, e2⟩ := h.row iy hiy ix hix
    rw [flatMap_getElem hg e1 (by split_ifs <;> omega), e2]
    cases b
    · simp [hk]
    · simp only [if_true]
      rw [List.getElem?_reverse (by simp; omega)]
      have : ((List.range ws.length).map (I iy ix)).length - 1 - (ws.length - 1 - k) = k := by simp; omega
      rw [this]
      simp [hk]
  have total := flatMap_length hg
  match hrows : f.rows with
  | [] =>
    have := h.rows
    rw [hrows] at this
    simp only [List.length_nil] at this
    have : 1 * 1 ≤ ys.length * xs.length := Nat.mul_le_mul hy hx
    omega
  | [r] =>
    have e := h.rows
    rw [hrows] at e
    simp only [List.length_singleton] at e
    have ex : xs.length = 1 := Nat.eq_one_of_mul_eq_one_left e.symm
    have ey : ys.length = 1 := Nat.eq_one_of_mul_eq_one_right e.symm
    rw [hrows] at val total
    simp only [List.flatMap_cons, List.flatMap_nil, List.append_nil, List.length_singleton, Nat.one_mul] at val total
    refine ⟨_, ?_, ?_, val⟩
    · unfold getData orient
      rw [hr]
      simp only [ex, ey, if_true, List.nil_append]
      rw [total]
    · rw [total, ex, ey]
      omega
  | r :: s :: rows =>
    have e := h.rows
    rw [hrows] at e
    rw [hrows] at val total
    refine ⟨_, ?_, by rw [total, e], val⟩
    unfold getData
    have hc : numCols r = .ok ws.length := by
      unfold numCols
      rw [h.size r (by rw [hrows]; simp)]
      simp only [intLit_dec]
    have hm : (r :: s :: rows).mapM (rowData nums st.reverse ws.length) =
        .ok ((r :: s :: rows).map fun r => if b then (nums r.text).reverse else nums r.text) := by
      apply mapM_ok
      intro q hq
      unfold rowData orient
      rw [hr]
      simp only []
      rw [if_pos (hg q (by rw [hrows]; exact hq))]
    simp only [hc, hm]
    unfold reshape
    have hshape : shapeOf st (rows.length + 2) ws.length =
        (if ys.length = 1 then [] else [ys.length]) ++ (if xs.length = 1 then [] else [xs.length]) ++ [ws.length] := by
      unfold shapeOf
      by_cases c1 : 2 ≤ xs.length <;> by_cases c2 : 2 ≤ ys.length
      · have d1 : st.has1 = true := by rw [h1]; simp [c1]
        have d2 : st.has2 = true := by rw [h2]; simp [c2]
        rw [if_pos d2, if_pos d1, s1 d1, s2 d2, if_neg (by omega), if_neg (by omega)]
        rfl
      · have d1 : st.has1 = true := by rw [h1]; simp [c1]
        have d2 : ¬ st.has2 = true := by rw [h2]; simp [c2]
        rw [if_neg d2, if_pos d1, s1 d1, if_pos (by omega), if_neg (by omega)]
        rfl
      · have d1 : ¬ st.has1 = true := by rw [h1]; simp [c1]
        have d2 : st.has2 = true := by rw [h2]; simp [c2]
        rw [if_pos d2, if_neg d1, s2 d2, if_neg (by omega), if_pos (by omega)]
        rfl
      · have ex : xs.length = 1 := by omega
        have ey : ys.length = 1 := by omega
        rw [ex, ey] at e
        simp at e
    rw [hshape, ← List.flatMap_def, if_pos]
    rw [total, e]
    split_ifs with c1 c2 c2 <;> simp [Verif.size, c1, c2, Nat.mul_assoc]

/-- The place of wavelength `k` of the file. -/
def place (reversed : Bool) (n k : Nat) : Nat := if reversed then n - 1 - k else k

/-- C104, partial: see the negations below for what is missing. In a file with at least two wavelengths,
every intensity is found at its row, column and wavelength, whether or not the order of the wavelengths is
reversed; reversing makes the axis ascend. The axes are in the order of the data, with names, units, sizes,
and the first two positions. A uniform axis is the line that fits the wavelengths best. -/
theorem C104_scan_partial {nums : Text → List ℚ} {toFloat : Text → Py ℚ} {uniform : Bool} {f : File} {ws : List ℚ} {u : Text}
    {xs ys : List ℚ} {I : Nat → Nat → Nat → ℚ} {r : Result}
    (h : Scan nums f ws u xs ys I) (hr : read nums toFloat false uniform f = .ok r) :
    ∃ (reversed : Bool) (l : List ℚ) (ay ax : List Axis) (s : SigAxis),
      r.shape = (if ys.length = 1 then [] else [ys.length]) ++ (if xs.length = 1 then [] else [xs.length]) ++ [ws.length] ∧
      r.data.length = ys.length * xs.length * ws.length ∧
      (∀ iy < ys.length, ∀ ix < xs.length, ∀ k < ws.length,
        r.data[(iy * xs.length + ix) * ws.length + place reversed ws.length k]? = some (I iy ix k)) ∧
      r.axes.map Prod.fst = ay ++ ax ++ [.signal s] ∧ r.axes.map Prod.snd = List.range r.axes.length ∧
      Navs (parts "0x3" f.axes) ys ay ∧ Navs (parts "0x2" f.axes) xs ax ∧
      (∀ name units, Kind u name units → s.name = some name ∧ s.units = some units) ∧
      l.length = ws.length ∧ (∀ k < ws.length, l[place reversed ws.length k]? = ws[k]?) ∧
      (ws.Pairwise (· < ·) ∨ ws.Pairwise (· > ·) → l.Pairwise (· < ·)) ∧
      if uniform then ∃ o b, s.cal = some (.uniform o b ws.length) ∧ ∀ o' b', deviation l o b ≤ deviation l o' b'
      else s.cal = some (.values l) := by
  unfold Verif.JobinYvon.read at hr
  simp only [Bool.false_eq_true, if_false, bind, Except.bind] at hr
  cases ho : getOriginal toFloat f with
  | error e => rw [ho] at hr; cases hr
  | ok o =>
    rw [ho] at hr
    simp only [] at hr
    obtain ⟨n, m, hk⟩ := signalUnits_ok h.units
    obtain ⟨st, s, ox, oy, g1, g2, g3, g4, g5, g6, g7, g8, g9, g10, g11, g12, g13, g14, g15, g16⟩ := axes_fold uniform h hk
    obtain ⟨l, b, c1, c2, c3⟩ := signalCal_two uniform h.two
    rw [c1] at g3 g6
    obtain ⟨data, d1, d2, d3⟩ := rows_data h (st := st) (b := b) g6 (g9.trans g15) (g10.trans g16)
      (fun e => g11 (g9 ▸ e)) (fun e => g12 (g10 ▸ e))
    rw [g1] at hr
    simp only [] at hr
    have ha : sortAxes st = .ok ((oy.toList.map Axis.nav ++ ox.toList.map Axis.nav ++ [Axis.signal s]).zipIdx) := by
      unfold sortAxes
      rw [g2]
      simp only [g7, g8, g9, g10]
      cases ox <;> cases oy <;> rfl
    rw [ha] at hr
    simp only [d1] at hr
    cases hm : mapMetadata f st o with
    | error e => rw [hm] at hr; cases hr
    | ok md =>
      rw [hm] at hr
      injection hr with hr
      subst hr
      have hl : l.length = ws.length := by rw [c2]; split_ifs <;> simp
      refine ⟨b, l, oy.toList.map Axis.nav, ox.toList.map Axis.nav, s, rfl, d2, d3, ?_, ?_, g14, g13, ?_, hl, ?_, ?_, ?_⟩
      · cases ox <;> cases oy <;> rfl
      · cases ox <;> cases oy <;> rfl
      · intro name units hkind
        rw [signalUnits_kind hkind] at hk
        injection hk with hk
        injection hk with e1 e2
        rw [g4, g5, e1, e2]
        exact ⟨rfl, rfl⟩
      · intro k hk
        rw [c2]
        unfold place
        cases b
        · rfl
        · simp only [if_true]
          rw [List.getElem?_reverse (by omega)]
          congr 1
          omega
      · have h2 := h.two
        obtain ⟨x, y, w, rfl⟩ : ∃ x y w, ws = x :: y :: w := by
          match ws, h2 with
          | x :: y :: w, _ => exact ⟨x, y, w, rfl⟩
        intro hm
        rw [c2]
        rcases hm with hm | hm
        · have hb : b = false := by
            cases hb : b
            · rfl
            · obtain ⟨x', y', e1, e2, e3⟩ := c3.1 hb
              simp only [List.getElem?_cons_zero, List.getElem?_cons_succ, Option.some.injEq] at e1 e2
              subst e1 e2
              have := (List.pairwise_cons.1 hm).1 y (by simp)
              exact absurd e3 (not_lt.2 this.le)
          rw [hb]
          exact hm
        · have hb : b = true := c3.2 ⟨x, y, rfl, rfl, (List.pairwise_cons.1 hm).1 y (by simp)⟩
          rw [hb, if_pos rfl, List.pairwise_reverse]
          exact hm
      · rw [g3]
        cases uniform
        · rfl
        · refine ⟨(fitAxis l).1, (fitAxis l).2, by rw [← hl]; rfl, fun o' b' => ?_⟩
          exact Lemmas.HamamatsuImage.fit_best (by rw [hl]; exact h.two) o' b'

end Verif.Props.JobinYvon
