import Verif.Model.Trivista
import Verif.Py.Lines
import Verif.Props.JobinYvon
/-!
C106: TriVista files keep every intensity at its position, time and wavelength.
-/
namespace Verif.Props.Trivista
open Verif.Trivista
open Verif.Spec.Hamamatsu (deviation)
open Verif.Renishaw (fitAxis)
open Verif.Props.JobinYvon (mapM_ok flatMap_getElem flatMap_length)

/-- Numbers written one after the other with a separator. -/
def Written (num : Text → Py ℚ) (sep : Char) (l : List ℚ) (t : Text) : Prop :=
  ∃ cells, cells ≠ [] ∧ (∀ c ∈ cells, sep ∉ c) ∧ t = joinWith [sep] cells ∧ List.Forall₂ (fun c x => num c = .ok x) cells l

/-- A document or window with wavelengths `ws` and `n` frames with intensities `I` at times `T`. -/
structure Spectra (num : Text → Py ℚ) (b : Block) (ws : List ℚ) (n : Nat) (I : Nat → Nat → ℚ) (T : Nat → Int) : Prop where
  axis : ∃ t, b.values = decChars ws.length ++ '|' :: t ∧ Written num '|' ws t
  frames : b.frames.length = n
  frame : ∀ i < n, ∃ f, b.frames[i]? = some f ∧ f.stamp = T i ∧ Written num ';' ((List.range ws.length).map (I i)) f.text

/-- The units on the axis. -/
def Units (file axis : Text) : Prop :=
  (file = "Nanometer".toList ∧ axis = "nm".toList) ∨ (file ≠ "Nanometer".toList ∧ axis = file)

/-- The signal axis: the wavelengths, or the line that fits them best. -/
def SigOk (uniform : Bool) (b : Block) (ws : List ℚ) (a : SigAxis) : Prop :=
  Units b.unit a.units ∧
  if uniform then ∃ o s, a.cal = .uniform o s ws.length ∧ ∀ o' s', deviation ws o s ≤ deviation ws o' s'
  else a.cal = .values ws

/-- How `n` frames are arranged, and the axes for that: one spectrum, a series in time, a line along
one of two directions, a map row by row. -/
def Arranged (f : File) (n : Nat) (T : Nat → Int) (dims : List Nat) (axes : List Axis) : Prop :=
  (f.x = none ∧ f.y = none ∧ n = 1 ∧ dims = [] ∧ axes = []) ∨
  (f.x = none ∧ f.y = none ∧ 2 ≤ n ∧ dims = [n] ∧ axes = [.time (((T 1 - T 0 : Int) : ℚ) / 10000000) n]) ∨
  (∃ a, f.x = some a ∧ f.y = none ∧ n = a.points ∧ dims = [n] ∧ axes = [.nav "X".toList a.from_ a.step n]) ∨
  (∃ a, f.x = none ∧ f.y = some a ∧ n = a.points ∧ dims = [n] ∧ axes = [.nav "Y".toList a.from_ a.step n]) ∨
  (∃ a b, f.x = some a ∧ f.y = some b ∧ n = b.points * a.points ∧ dims = [b.points, a.points] ∧
    axes = [.nav "Y".toList b.from_ b.step b.points, .nav "X".toList a.from_ a.step a.points])

theorem mapM_forall₂ {α β : Type} {f : α → Py β} : ∀ {l : List α} {m : List β}, List.Forall₂ (fun a b => f a = .ok b) l m →
    l.mapM f = .ok m
  | _, _, .nil => rfl
  | _, _, .cons h t => by
    rw [List.mapM_cons, h, mapM_forall₂ t]
    rfl

theorem written_split {num : Text → Py ℚ} {sep : Char} {l : List ℚ} {t : Text} (h : Written num sep l t) :
    (splitChar sep t).mapM num = .ok l := by
  obtain ⟨cells, h1, h2, rfl, h3⟩ := h
  rw [splitChar_join h1 h2]
  exact mapM_forall₂ h3

theorem written_ne {num : Text → Py ℚ} {sep : Char} {l : List ℚ} {t : Text} (h : Written num sep l t) : l ≠ [] := by
  obtain ⟨cells, h1, h2, rfl, h3⟩ := h
  intro e
  subst e
  cases h3
  exact h1 rfl

theorem dec_bar (n : Nat) : '|' ∉ decChars n := by
  intro h
  have := decChars_digits n _ h
  revert this
  decide

theorem signal_ok {num : Text → Py ℚ} {uniform : Bool} {b : Block} {ws : List ℚ} {n : Nat} {I : Nat → Nat → ℚ} {T : Nat → Int}
    (h : Spectra num b ws n I T) (hu : uniform = true → 2 ≤ ws.length) :
    ∃ a, signalAxis num uniform b = .ok a ∧ SigOk uniform b ws a ∧ axisSize uniform (.signal a) = .ok ws.length := by
  obtain ⟨t, ht, hw⟩ := h.axis
  have hs : splitChar '|' b.values = decChars ws.length :: splitChar '|' t := by
    rw [ht, splitChar_append (dec_bar _)]
  refine ⟨⟨signalCal uniform ws, if b.unit = "Nanometer".toList then "nm".toList else b.unit⟩, ?_, ⟨?_, ?_⟩, ?_⟩
  · unfold signalAxis
    rw [hs]
    simp only [intLit_dec, written_split hw, bind, Except.bind]
  · unfold Units
    dsimp only
    split_ifs with c
    · exact .inl ⟨c, rfl⟩
    · exact .inr ⟨c, rfl⟩
  · cases uniform with
    | false =>
      unfold signalCal
      simp
    | true =>
      have := hu rfl
      refine ⟨(fitAxis ws).1, (fitAxis ws).2, ?_, fun o' s' => Lemmas.HamamatsuImage.fit_best this o' s'⟩
      unfold signalCal
      rw [if_pos ⟨by omega, rfl⟩]
  · cases uniform with
    | false =>
      unfold signalCal
      simp [axisSize]
    | true =>
      have := hu rfl
      unfold signalCal
      rw [if_pos ⟨by omega, rfl⟩]
      rfl

theorem frames_ok {num : Text → Py ℚ} {b : Block} {ws : List ℚ} {n : Nat} {I : Nat → Nat → ℚ} {T : Nat → Int}
    (h : Spectra num b ws n I T) (hn : 1 ≤ n) : ∃ d, parseData num b = .ok (d, (List.range n).map fun i => ((T i - T 0 : Int) : ℚ) / 10000000) ∧
      d.length = n * ws.length ∧ ∀ i < n, ∀ k < ws.length, d[i * ws.length + k]? = some (I i k) := by
  have hm : b.frames.mapM (frameData num) = .ok ((List.range n).map fun i => (List.range ws.length).map (I i)) := by
    apply mapM_forall₂
    rw [List.forall₂_iff_get]
    refine ⟨by simp [h.frames], fun i h1 h2 => ?_⟩
    obtain ⟨f, e1, _, e3⟩ := h.frame i (by rw [← h.frames]; exact h1)
    rw [List.getElem?_eq_getElem h1] at e1
    injection e1 with e1
    unfold frameData
    simp only [List.get_eq_getElem, e1, List.getElem_map, List.getElem_range]
    exact written_split e3
  have hlen : ∀ i ∈ List.range n, ((List.range ws.length).map (I i)).length = ws.length := by simp
  have hsame : sameLength ((List.range n).map fun i => (List.range ws.length).map (I i)) = true := by
    unfold sameLength
    split
    · rfl
    · rename_i r rs e
      rw [List.all_eq_true]
      intro s hs
      have a1 : r ∈ (List.range n).map fun i => (List.range ws.length).map (I i) := by rw [e]; simp
      have a2 : s ∈ (List.range n).map fun i => (List.range ws.length).map (I i) := by rw [e]; simp [hs]
      rw [List.mem_map] at a1 a2
      obtain ⟨i, _, rfl⟩ := a1
      obtain ⟨j, _, rfl⟩ := a2
      simp
  have ht : times b.frames = .ok ((List.range n).map fun i => ((T i - T 0 : Int) : ℚ) / 10000000) := by
    obtain ⟨f0, e1, e2, _⟩ := h.frame 0 hn
    unfold times
    cases hb : b.frames with
    | nil => rw [hb] at e1; cases e1
    | cons g gs =>
      rw [hb] at e1
      injection e1 with e1
      subst e1
      show Except.ok _ = _
      refine congrArg Except.ok ?_
      apply List.ext_getElem
      · rw [List.length_map, ← hb, h.frames]; simp
      · intro i h1 h2
        rw [List.length_map, List.length_range] at h2
        obtain ⟨f, e3, e4, _⟩ := h.frame i h2
        rw [hb] at e3
        rw [List.getElem_map, List.getElem_map, List.getElem_range]
        have : (g :: gs)[i]'(by simpa using h1) = f := by
          rw [List.getElem?_eq_getElem (by simpa using h1)] at e3
          injection e3
        rw [this, e4, e2]
  refine ⟨((List.range n).map fun i => (List.range ws.length).map (I i)).flatten, ?_, ?_, ?_⟩
  · unfold parseData
    simp only [hm, bind, Except.bind, hsame, if_true, ht]
  · rw [← List.flatMap_def, flatMap_length hlen]
    simp
  · intro i hi k hk
    rw [← List.flatMap_def, flatMap_getElem hlen (a := i) (by simp [hi]) hk]
    simp [hk]

theorem arranged_axes {f : File} {n : Nat} {T : Nat → Int} {dims : List Nat} {axes : List Axis} (h : Arranged f n T dims axes)
    (hf : f.frames = n) (uniform : Bool) : 1 ≤ n → frameAxes f (.one ((List.range n).map fun i => ((T i - T 0 : Int) : ℚ) / 10000000)) =
      .ok (axes.zipIdx.map fun e => (e.1, (e.2 : Int))) ∧ size dims = n ∧ dims.length = axes.length ∧
      axes.mapM (axisSize uniform) = .ok dims := by
  intro hn
  rcases h with ⟨hx, hy, rfl, rfl, rfl⟩ | ⟨hx, hy, h2, rfl, rfl⟩ | ⟨a, hx, hy, e, rfl, rfl⟩ | ⟨a, hx, hy, e, rfl, rfl⟩ | ⟨a, b, hx, hy, e, rfl, rfl⟩
  · refine ⟨?_, rfl, rfl, rfl⟩
    unfold frameAxes
    rw [if_pos (.inr hf)]
    unfold navAxes
    rw [hx, hy]
    rfl
  · refine ⟨?_, by simp [size], rfl, rfl⟩
    unfold frameAxes
    have hxy : xyFrames f = 0 := by unfold xyFrames; rw [hx, hy]
    rw [if_neg (by rw [hxy]; omega)]
    have : timeAxis (.one ((List.range n).map fun i => ((T i - T 0 : Int) : ℚ) / 10000000)) =
        .ok (.time (((T 1 - T 0 : Int) : ℚ) / 10000000) n) := by
      unfold timeAxis
      have : ((List.range n).map fun i => ((T i - T 0 : Int) : ℚ) / 10000000)[1]? = some (((T 1 - T 0 : Int) : ℚ) / 10000000) := by
        simp [show 1 < n by omega]
      simp only [this]
      simp
    rw [this]
    simp only []
    rw [if_neg (by rw [hx, hy]; simp)]
    rfl
  · refine ⟨?_, by simp [size], rfl, rfl⟩
    unfold frameAxes
    have hxy : xyFrames f = a.points := by unfold xyFrames; rw [hx, hy]
    rw [if_pos (.inl (by rw [hxy]; omega))]
    unfold navAxes
    rw [hx, hy]
    simp [navAxis, e]
  · refine ⟨?_, by simp [size], rfl, rfl⟩
    unfold frameAxes
    have hxy : xyFrames f = a.points := by unfold xyFrames; rw [hx, hy]
    rw [if_pos (.inl (by rw [hxy]; omega))]
    unfold navAxes
    rw [hx, hy]
    simp [navAxis, e]
  · refine ⟨?_, by simp [size, e], rfl, rfl⟩
    unfold frameAxes
    have hxy : xyFrames f = b.points * a.points := by unfold xyFrames; rw [hx, hy]
    rw [if_pos (.inl (by rw [hxy]; omega))]
    unfold navAxes
    rw [hx, hy]
    simp [navAxis]

theorem mapM_append_ok {α β : Type} {f : α → Py β} : ∀ {l : List α} {m : List β} {a : α} {b : β}, l.mapM f = .ok m → f a = .ok b →
    (l ++ [a]).mapM f = .ok (m ++ [b]) := by
  intro l m a b h1 h2
  rw [List.mapM_append, h1]
  simp only [bind, Except.bind]
  rw [List.mapM_cons, h2]
  rfl

theorem mapM_map {α β γ : Type} {f : β → Py γ} {g : α → β} : ∀ {l : List α}, (l.map g).mapM f = l.mapM fun a => f (g a)
  | [] => rfl
  | a :: l => by
    rw [List.map_cons, List.mapM_cons, List.mapM_cons, mapM_map]

theorem size_append : ∀ (l : List Nat) (n : Nat), size (l ++ [n]) = size l * n
  | [], n => by simp [size]
  | a :: l, n => by
    rw [List.cons_append, size, size_append l n, size]
    ring

/-- C106, partial: see the negations below for what is missing. A document with `n` spectra, which are one
spectrum, a series in time, a line scan or a map, is read as one signal. Every intensity is found at its
frame and wavelength, frames of maps are in rows. The axes are in the order of the data with the sizes,
first positions and steps of the file; the step in time is that between the first two frames. -/
theorem C106_scan_partial {num : Text → Py ℚ} {uniform stack : Bool} {f : File} {ws : List ℚ} {n : Nat} {I : Nat → Nat → ℚ}
    {T : Nat → Int} {dims : List Nat} {axes : List Axis} (h : Spectra num f.doc ws n I T) (hn : 1 ≤ n) (hf : f.frames = n)
    (ha : Arranged f n T dims axes) (hs : stack = false ∨ f.count = 0) (hu : uniform = true → 2 ≤ ws.length) :
    ∃ (s : Signal) (a : SigAxis), read num false uniform stack f = .ok [s] ∧ s.shape = dims ++ [ws.length] ∧
      s.data.length = n * ws.length ∧ (∀ i < n, ∀ k < ws.length, s.data[i * ws.length + k]? = some (I i k)) ∧
      s.axes.map Prod.fst = axes ++ [.signal a] ∧ s.axes.map Prod.snd = (List.range s.axes.length).map Int.ofNat ∧
      SigOk uniform f.doc ws a := by
  obtain ⟨a, a1, a2, a3⟩ := signal_ok (uniform := uniform) h hu
  obtain ⟨d, d1, d2, d3⟩ := frames_ok h hn
  obtain ⟨g1, g2, g3, g4⟩ := arranged_axes ha hf uniform hn
  have hst : ¬ (stack = true ∧ f.count ≠ 0) := by
    rintro ⟨c1, c2⟩
    rcases hs with e | e
    · rw [e] at c1; cases c1
    · exact c2 e
  refine ⟨⟨dims ++ [ws.length], d, (axes.zipIdx.map fun e => (e.1, (e.2 : Int))) ++ [(.signal a, (axes.length : Int))]⟩, a, ?_, rfl, d2, d3, ?_, ?_, a2⟩
  · unfold Verif.Trivista.read getData setAxes
    rw [if_neg hst]
    simp only [Bool.false_eq_true, if_false, d1, a1, bind, Except.bind, g1]
    rw [if_neg hst]
    have hmm : ((axes.zipIdx.map fun e => (e.1, (e.2 : Int))) ++ [(Axis.signal a, (axes.length : Int))]).mapM
        (fun a => axisSize uniform a.1) = .ok (dims ++ [ws.length]) := by
      apply mapM_append_ok (f := fun a : Axis × Int => axisSize uniform a.1) (b := ws.length) (a := (Axis.signal a, (axes.length : Int))) _ a3
      rw [mapM_map]
      show axes.zipIdx.mapM (fun a => axisSize uniform (Prod.fst a)) = _
      rw [← mapM_map (f := axisSize uniform) (g := Prod.fst)]
      rw [List.zipIdx_map_fst]
      exact g4
    have hr : reshape (decide (stack = true ∧ f.count ≠ 0)) (dims ++ [ws.length]) d = .ok (dims ++ [ws.length], d) := by
      unfold reshape
      rw [decide_eq_false hst, size_append, g2, d2, if_neg (by simp)]
      rfl
    rw [show (axes.zipIdx.map fun e => (e.1, (e.2 : Int))).length = axes.length by simp]
    simp only [hmm, List.mapM_cons, List.mapM_nil, hr, bind, Except.bind, pure, Except.pure]
    rfl
  · rw [List.map_append, List.map_map]
    have : (Prod.fst ∘ fun e : Axis × Nat => (e.1, (e.2 : Int))) = Prod.fst := rfl
    rw [this, List.zipIdx_map_fst]
    rfl
  · rw [List.map_append, List.map_map]
    have : (Prod.snd ∘ fun e : Axis × Nat => (e.1, (e.2 : Int))) = Int.ofNat ∘ Prod.snd := rfl
    rw [this, ← List.map_map, List.zipIdx_map_snd, List.length_append, List.length_map, List.length_zipIdx]
    simp [List.range_succ, List.range_eq_range']

theorem mapM_exists {α β : Type} {f : α → Py β} {P : Nat → β → Prop} : ∀ {l : List α},
    (∀ i a, l[i]? = some a → ∃ b, f a = .ok b ∧ P i b) → ∃ r, l.mapM f = .ok r ∧ r.length = l.length ∧ ∀ i b, r[i]? = some b → P i b := by
  intro l
  induction l generalizing P with
  | nil => exact fun _ => ⟨[], rfl, rfl, by simp⟩
  | cons a l ih =>
    intro h
    obtain ⟨b, h1, h2⟩ := h 0 a rfl
    obtain ⟨r, h3, h4, h5⟩ := ih (P := fun i => P (i + 1)) fun i a' e => h (i + 1) a' e
    refine ⟨b :: r, ?_, by simp [h4], ?_⟩
    · rw [List.mapM_cons, h1, h3]
      rfl
    · intro i b' e
      cases i with
      | zero =>
        injection e with e
        exact e ▸ h2
      | succ i => exact h5 i b' e

theorem same_of {n : Nat} {rows : List (List ℚ)} (h : ∀ r ∈ rows, r.length = n) : sameLength rows = true := by
  unfold sameLength
  split
  · rfl
  · rw [List.all_eq_true]
    intro s hs
    rw [h s (by simp [hs]), h _ (by simp)]
    simp

/-- C106, partial: the windows of a glued spectrum, if they have the same number of wavelengths, are read
one by one, each with its own wavelengths. -/
theorem C106_windows_partial {num : Text → Py ℚ} {uniform : Bool} {f : File} {ws : Nat → List ℚ} {m w : Nat} {I : Nat → Nat → ℚ}
    (hc : f.count ≠ 0) (hl : f.childs.length = m) (hm : 1 ≤ m) (hx : f.x = none) (hy : f.y = none) (hf : f.frames = 1)
    (h : ∀ i < m, (ws i).length = w ∧ ∃ b T, f.childs[i]? = some b ∧ Spectra num b (ws i) 1 (fun _ => I i) T)
    (hu : uniform = true → 2 ≤ w) :
    ∃ r, read num false uniform true f = .ok r ∧ r.length = m ∧ ∀ i < m, ∃ (s : Signal) (b : Block) (a : SigAxis) (j : Int), r[i]? = some s ∧ f.childs[i]? = some b ∧
      s.shape = [w] ∧ s.data = (List.range w).map (I i) ∧ s.axes = [(.signal a, j)] ∧ SigOk uniform b (ws i) a := by
  obtain ⟨l, l1, l2, l3⟩ := mapM_exists (f := window num uniform) (l := f.childs)
    (P := fun i e => ∃ b, f.childs[i]? = some b ∧ SigOk uniform b (ws i) e.1 ∧ axisSize uniform (.signal e.1) = .ok w ∧
      e.2.1 = (List.range w).map (I i) ∧ e.2.2.length = 1) (by
    intro i b hb
    obtain ⟨hi, _⟩ := List.getElem?_eq_some_iff.1 hb
    rw [hl] at hi
    obtain ⟨e1, b', T, e2, e3⟩ := h i hi
    rw [hb] at e2
    injection e2 with e2
    subst e2
    obtain ⟨a, a1, a2, a3⟩ := signal_ok (uniform := uniform) e3 (by rw [e1]; exact hu)
    obtain ⟨d, d1, d2, d3⟩ := frames_ok e3 (le_refl 1)
    refine ⟨(a, d, (List.range 1).map fun i => ((T i - T 0 : Int) : ℚ) / 10000000), ?_, b, hb, a2, by rw [a3, e1], ?_, ?_⟩
    · unfold window
      simp only [a1, d1, bind, Except.bind]
    · apply List.ext_getElem?
      intro k
      by_cases hk : k < w
      · have := d3 0 (by omega) k (by omega)
        rw [Nat.zero_mul, Nat.zero_add] at this
        simp [this, hk]
      · rw [List.getElem?_eq_none (by rw [d2, e1]; omega), List.getElem?_eq_none (by simp; omega)]
    · simp)
  rw [hl] at l2
  have hst : (true = true ∧ f.count ≠ 0) := ⟨rfl, hc⟩
  have all : ∀ e ∈ l, ∃ i, i < m ∧ l[i]? = some e := by
    intro e he
    obtain ⟨i, hi, rfl⟩ := List.getElem_of_mem he
    exact ⟨i, by omega, List.getElem?_eq_getElem hi⟩
  have s1 : sameLength (l.map fun e => e.2.1) = true := by
    apply same_of (n := w)
    intro r hr
    rw [List.mem_map] at hr
    obtain ⟨e, he, rfl⟩ := hr
    obtain ⟨i, _, hi⟩ := all e he
    obtain ⟨b, _, _, _, q, _⟩ := l3 i e hi
    rw [q]
    simp
  have s2 : sameLength (l.map fun e => e.2.2) = true := by
    apply same_of (n := 1)
    intro r hr
    rw [List.mem_map] at hr
    obtain ⟨e, he, rfl⟩ := hr
    obtain ⟨i, _, hi⟩ := all e he
    obtain ⟨b, _, _, _, _, q⟩ := l3 i e hi
    exact q
  have fa : ∀ t, frameAxes f t = .ok [] := by
    intro t
    unfold frameAxes
    rw [if_pos (.inr hf)]
    unfold navAxes
    rw [hx, hy]
  refine ⟨l.map fun e => ⟨[w], e.2.1, [(.signal e.1, -1)]⟩, ?_, by simp [l2], ?_⟩
  · unfold Verif.Trivista.read getData setAxes
    rw [if_pos hst]
    simp only [Bool.false_eq_true, if_false, l1, bind, Except.bind, s1, s2, and_self, if_true, fa]
    rw [if_pos ⟨trivial, hc⟩]
    have hrs : (l.map fun e => e.2.1).mapM (reshape (decide (True ∧ f.count ≠ 0)) [w]) = .ok (l.map fun e => ([w], e.2.1)) := by
      rw [mapM_map]
      apply mapM_ok
      intro e he
      obtain ⟨i, _, hi⟩ := all e he
      obtain ⟨b, _, _, _, q, _⟩ := l3 i e hi
      unfold reshape
      rw [decide_eq_true ⟨trivial, hc⟩, q]
      simp [size]
    cases hll : l with
    | nil => rw [hll] at l2; simp at l2; omega
    | cons e es =>
      obtain ⟨b, _, _, q, _, _⟩ := l3 0 e (by rw [hll]; rfl)
      rw [hll] at hrs
      simp only [List.map_cons, List.nil_append, List.length_nil]
      simp only [List.map_cons] at hrs
      have : List.mapM (fun a : Axis × Int => axisSize uniform a.1) [(Axis.signal e.1, ((0 : Nat) : Int) - 1)] = .ok [w] := by
        rw [List.mapM_cons, q]
        rfl
      simp only [this, hrs, List.zip_cons_cons, List.map_cons]
      congr 2
      rw [List.map_map, List.zip_map', List.map_map]
      rfl
  · intro i hi
    obtain ⟨e, he⟩ : ∃ e, l[i]? = some e := ⟨_, List.getElem?_eq_getElem (by omega)⟩
    obtain ⟨b, q1, q2, q3, q4, q5⟩ := l3 i e he
    exact ⟨_, b, e.1, -1, by rw [List.getElem?_map, he]; rfl, q1, rfl, q4, rfl, q2⟩

/-! ### Examples -/

/-- Numbers of one digit. -/
def digit : Text → Py ℚ
  | [c] => if isDigit c then .ok ((c.toNat - 48 : Nat) : ℚ) else .error .valueError
  | _ => .error .valueError

/-- A map of two by two spectra with three wavelengths. -/
def exMap : File :=
  { count := 0,
    doc := ⟨"3|1|2|4".toList, "Nanometer".toList,
      [⟨100, "0;1;2".toList⟩, ⟨200, "3;4;5".toList⟩, ⟨300, "6;7;8".toList⟩, ⟨400, "9;8;7".toList⟩]⟩,
    childs := [], x := some ⟨5, 1 / 2, 2⟩, y := some ⟨7, 2, 2⟩, frames := 4 }

def exI (i k : Nat) : ℚ := if i = 3 then 9 - k else 3 * i + k

theorem exWritten {sep : Char} {l : List ℚ} {t : Text} (cells : List Text) (h1 : cells ≠ []) (h2 : ∀ c ∈ cells, sep ∉ c) (h3 : t = joinWith [sep] cells)
    (h4 : cells.mapM digit = .ok l) : Written digit sep l t := by
  refine ⟨cells, h1, h2, h3, ?_⟩
  clear h1 h2 h3
  induction cells generalizing l with
  | nil => cases h4; exact .nil
  | cons c cs ih =>
    rw [List.mapM_cons] at h4
    simp only [bind, Except.bind] at h4
    cases hc : digit c with
    | error e => rw [hc] at h4; cases h4
    | ok x =>
      rw [hc] at h4
      simp only [] at h4
      cases hm : cs.mapM digit with
      | error e => rw [hm] at h4; cases h4
      | ok m =>
        rw [hm] at h4
        cases h4
        exact .cons hc (ih hm)

theorem exMap_spectra : Spectra digit exMap.doc [1, 2, 4] 4 exI (fun i => 100 * i + 100) where
  axis := ⟨"1|2|4".toList, by decide +kernel, exWritten ["1".toList, "2".toList, "4".toList] (by decide) (by decide) (by decide) (by decide +kernel)⟩
  frames := rfl
  frame := by
    intro i hi
    rcases i with _ | _ | _ | _ | i
    · exact ⟨_, rfl, rfl, exWritten ["0".toList, "1".toList, "2".toList] (by decide) (by decide) (by decide) (by decide +kernel)⟩
    · exact ⟨_, rfl, rfl, exWritten ["3".toList, "4".toList, "5".toList] (by decide) (by decide) (by decide) (by decide +kernel)⟩
    · exact ⟨_, rfl, rfl, exWritten ["6".toList, "7".toList, "8".toList] (by decide) (by decide) (by decide) (by decide +kernel)⟩
    · exact ⟨_, rfl, rfl, exWritten ["9".toList, "8".toList, "7".toList] (by decide) (by decide) (by decide) (by decide +kernel)⟩
    · omega

/-- The map meets the hypotheses. -/
example : ∃ dims axes, Arranged exMap 4 (fun i => 100 * i + 100) dims axes ∧ dims = [2, 2] :=
  ⟨_, _, .inr (.inr (.inr (.inr ⟨_, _, rfl, rfl, rfl, rfl, rfl⟩))), rfl⟩

/-- A glued spectrum with two windows. -/
def exGlued : File :=
  { count := 2, doc := ⟨"3|1|2|3".toList, "Nanometer".toList, [⟨100, "5;6;7".toList⟩]⟩,
    childs := [⟨"2|1|2".toList, "Nanometer".toList, [⟨100, "5;6".toList⟩]⟩, ⟨"2|2|3".toList, "Nanometer".toList, [⟨200, "6;7".toList⟩]⟩],
    x := none, y := none, frames := 1 }

/-- The glued spectrum meets the hypotheses. -/
example : ∀ i < 2, (([[1, 2], [2, 3]] : List (List ℚ)).getD i []).length = 2 ∧ ∃ b T, exGlued.childs[i]? = some b ∧
    Spectra digit b (([[1, 2], [2, 3]] : List (List ℚ)).getD i []) 1 (fun _ k => 5 + i + k) T := by
  intro i hi
  rcases i with _ | _ | i
  · refine ⟨rfl, _, fun _ => 100, rfl, ⟨"1|2".toList, by decide +kernel, exWritten ["1".toList, "2".toList] (by decide) (by decide) (by decide) (by decide +kernel)⟩, rfl, ?_⟩
    intro i hi
    rw [Nat.lt_one_iff] at hi
    subst hi
    exact ⟨_, rfl, rfl, exWritten ["5".toList, "6".toList] (by decide) (by decide) (by decide) (by decide +kernel)⟩
  · refine ⟨rfl, _, fun _ => 200, rfl, ⟨"2|3".toList, by decide +kernel, exWritten ["2".toList, "3".toList] (by decide) (by decide) (by decide) (by decide +kernel)⟩, rfl, ?_⟩
    intro i hi
    rw [Nat.lt_one_iff] at hi
    subst hi
    exact ⟨_, rfl, rfl, exWritten ["6".toList, "7".toList] (by decide) (by decide) (by decide) (by decide +kernel)⟩
  · omega

/-! ### Negations -/

/-- A series with frames at other distances than the first two. -/
def exSeries : File :=
  { count := 0, doc := ⟨"1|5".toList, "Nanometer".toList, [⟨0, "1".toList⟩, ⟨10000000, "2".toList⟩, ⟨50000000, "3".toList⟩]⟩,
    childs := [], x := none, y := none, frames := 3 }

/-- C106 fails for times: only the first two count, so that a frame taken after five seconds is said to
be taken after two (`_get_time_axis`). -/
theorem C106_fails_uneven : ∃ s, read digit false false false exSeries = .ok [s] ∧ s.axes.head?.map Prod.fst = some (.time 1 3) ∧
    times exSeries.doc.frames = .ok [0, 1, 5] :=
  ⟨_, rfl, by
    have : ((10000000 - 0 : Int) : ℚ) / 10000000 = 1 := by norm_num
    show some (Axis.time (((10000000 - 0 : Int) : ℚ) / 10000000) 3) = _
    rw [this], by decide +kernel⟩

/-- C106 fails for windows: their only axis is at place -1 (`set_axes`, where the place of the signal axis is
the number of axes without it, less one). -/
theorem C106_fails_place : (read digit false false true exGlued).toOption.map (fun r => r.map fun s => s.axes.map Prod.snd) = some [[-1], [-1]] := rfl

/-- C106 fails for windows with different numbers of wavelengths: they cannot be read. -/
theorem C106_fails_windows : read digit false false true { exGlued with
    childs := [⟨"2|1|2".toList, "Nanometer".toList, [⟨100, "5;6".toList⟩]⟩, ⟨"1|3".toList, "Nanometer".toList, [⟨200, "7".toList⟩]⟩] } =
    .error .valueError := rfl

/-- C106 fails for windows of a line scan: they cannot be read. -/
theorem C106_fails_glued_scan : read digit false false true { exGlued with
    childs := [⟨"2|1|2".toList, "Nanometer".toList, [⟨100, "5;6".toList⟩, ⟨200, "5;6".toList⟩]⟩],
    x := some ⟨0, 1, 2⟩, frames := 2 } = .error .valueError := rfl

/-- C106 fails for one wavelength if the axis shall be uniform: the size is missing. -/
theorem C106_fails_single : read digit false true false exSeries = .error .keyError := rfl

/-- C106 fails for maps with several frames at each position. -/
theorem C106_fails_repeat : read digit false false false { exMap with x := none } = .error .notImplemented := rfl

end Verif.Props.Trivista
