import Verif.Spec.Jeol
/-! Lemmas about the readers of JEOL streams. -/
namespace Verif.Jeol

theorem skipLoop_add : ∀ (ws : List Nat) (n prev : Nat),
    skipLoop n prev ws = n + skipLoop 0 prev ws
  | [], n, _ => rfl
  | w :: ws, n, prev => by
    unfold skipLoop
    split
    · split
      · rfl
      · rw [skipLoop_add ws (n + 1), skipLoop_add ws (0 + 1)]; omega
    · rw [skipLoop_add ws (n + 1), skipLoop_add ws (0 + 1)]; omega

/-- Length of the rest of a frame after a row. -/
def flen (prev : Nat) (ws : List Nat) : Nat := skipLoop 0 prev ws

theorem flen_stop {prev w : Nat} {ws : List Nat} (h : w / 4096 = 9) (h' : w % 4096 < prev) :
    flen prev (w :: ws) = 0 := by
  rw [flen, skipLoop, if_pos h, if_pos h']

theorem flen_row {prev w : Nat} {ws : List Nat} (h : w / 4096 = 9) (h' : ¬ w % 4096 < prev) :
    flen prev (w :: ws) = flen (w % 4096) ws + 1 := by
  rw [flen, skipLoop, if_pos h, if_neg h', skipLoop_add, flen]; omega

theorem flen_other {prev w : Nat} {ws : List Nat} (h : ¬ w / 4096 = 9) :
    flen prev (w :: ws) = flen prev ws + 1 := by
  rw [flen, skipLoop, if_neg h, skipLoop_add, flen]; omega

theorem flen_le : ∀ (ws : List Nat) (prev : Nat), flen prev ws ≤ ws.length
  | [], _ => Nat.le_refl _
  | w :: ws, prev => by
    by_cases h : w / 4096 = 9
    · by_cases h' : w % 4096 < prev
      · rw [flen_stop h h']; omega
      · rw [flen_row h h', List.length_cons]; have := flen_le ws (w % 4096); omega
    · rw [flen_other h, List.length_cons]; have := flen_le ws prev; omega

theorem valuesOf_cons_pos {ty w : Nat} {ws : List Nat} (h : w / 4096 = ty) :
    valuesOf ty (w :: ws) = w % 4096 :: valuesOf ty ws := by
  simp [valuesOf, h]

theorem valuesOf_cons_neg {ty w : Nat} {ws : List Nat} (h : ¬ w / 4096 = ty) :
    valuesOf ty (w :: ws) = valuesOf ty ws := by
  simp [valuesOf, h]

/-- The words before the position found by skipping are a frame. -/
theorem flen_frame : ∀ (ws : List Nat) (prev : Nat),
    (prev :: valuesOf 9 (ws.take (flen prev ws))).Pairwise (· ≤ ·) ∧
    ∀ w t, ws.drop (flen prev ws) = w :: t → w / 4096 = 9 ∧
      w % 4096 < (valuesOf 9 (ws.take (flen prev ws))).getLast?.getD prev
  | [], prev => by simp [flen, skipLoop, valuesOf]
  | w :: ws, prev => by
    by_cases h : w / 4096 = 9
    · by_cases h' : w % 4096 < prev
      · rw [flen_stop h h']
        refine ⟨by simp [valuesOf], ?_⟩
        intro w' t e
        simp only [List.drop_zero, List.cons.injEq] at e
        obtain ⟨rfl, rfl⟩ := e
        exact ⟨h, by simpa [valuesOf] using h'⟩
      · rw [flen_row h h', List.take_succ_cons, List.drop_succ_cons, valuesOf_cons_pos h]
        obtain ⟨i1, i2⟩ := flen_frame ws (w % 4096)
        constructor
        · rw [List.pairwise_cons]
          refine ⟨?_, i1⟩
          intro b hb
          rcases List.mem_cons.1 hb with rfl | hb
          · omega
          · have := (List.pairwise_cons.1 i1).1 b hb
            omega
        · intro w' t e
          obtain ⟨j1, j2⟩ := i2 w' t e
          refine ⟨j1, ?_⟩
          rw [List.getLast?_cons]
          exact j2
    · rw [flen_other h, List.take_succ_cons, List.drop_succ_cons, valuesOf_cons_neg h]
      exact flen_frame ws prev

/-! The loop of the dense reader. -/

def applyEv (maxv : Nat) (up : Bool) (m : Map) (e : Int × Int × Int) : Map :=
  setMap m e.1 e.2.1 e.2.2 (bump maxv up (m e.1 e.2.1 e.2.2))

def applyEm (md : Nat) (up : Bool) (m : Em) (e : Int × Int × Nat) : Em :=
  setEm m e.1 e.2.1 (bumpEm md up (m e.1 e.2.1) e.2.2)

/-- No count reaches the maximum on the way. -/
def Safe (maxv : Nat) (up : Bool) : Map → List (Int × Int × Int) → Prop
  | _, [] => True
  | m, e :: es => bump maxv up (m e.1 e.2.1 e.2.2) ≠ maxv ∧ Safe maxv up (applyEv maxv up m e) es

/-- Position kept by the reader: -1 beyond the map. -/
def clip (w x : Int) : Int := if w ≤ x then -1 else x

theorem clip_nonneg {w x : Int} : 0 ≤ clip w x ↔ 0 ≤ x ∧ x < w := by
  unfold clip; split <;> omega

theorem clip_eq {w x : Int} (h : 0 ≤ clip w x) : clip w x = x := by
  unfold clip at h ⊢; split <;> simp_all

def orLast (o : Option Nat) (l : List Nat) : Option Nat := l.getLast?.or o

theorem orLast_cons (o : Option Nat) (v : Nat) (l : List Nat) :
    orLast o (v :: l) = orLast (some v) l := by
  unfold orLast
  rw [List.getLast?_cons]
  cases l.getLast? <;> rfl

/-- What the loop has done when it does not raise. -/
structure DenseSpec (p : Par) (up : Bool) (s : Dense) (x y : Int) (a : List Nat) (s' : Dense) :
    Prop where
  count : s'.count = s.count + a.length
  prevX : s'.prevX = orLast s.prevX (valuesOf 8 a)
  prevY : s'.prevY = ((valuesOf 9 a).getLast?.map Int.ofNat).getD s.prevY
  hasEm : s'.hasEm = (s.hasEm || !(emEventsOf p x y a).isEmpty)
  map : s'.map = (eventsOf p x y a).foldl (applyEv p.maxv up) s.map
  em : s'.em = (emEventsOf p x y a).foldl (applyEm p.emMod up) s.em
  inside : ∀ e ∈ emEventsOf p x y a, e.1 < p.emRows ∧ e.2.1 < p.emCols
  safe : Safe p.maxv up s.map (eventsOf p x y a)

theorem dense_spec (p : Par) (up : Bool) : ∀ (ws : List Nat) (s : Dense) (x y : Int) (prev : Nat)
    (s' : Dense), denseLoop p up s ws = .ok s' → s.x = clip p.width x → s.y = clip p.height y →
    (∀ v : Nat, (v : Int) < s.prevY ↔ v < prev) →
    DenseSpec p up s x y (ws.take (flen prev ws)) s'
  | [], s, x, y, prev, s', h, hx, hy, hp => by
    cases h
    constructor <;> simp [valuesOf, eventsOf, emEventsOf, Safe, orLast]
  | w :: ws, s, x, y, prev, s', h, hx, hy, hp => by
    unfold denseLoop at h
    dsimp only at h
    by_cases h8 : w / 4096 = 8
    · rw [if_pos h8] at h
      have h9 : ¬ w / 4096 = 9 := by omega
      have := dense_spec p up ws _ ((w % 4096 / p.wnorm : Nat) + p.dx) y prev s' h rfl hy hp
      rw [flen_other h9, List.take_succ_cons]
      obtain ⟨c1, c2, c3, c4, c5, c6, c7, c8⟩ := this
      constructor
      · rw [c1, List.length_cons]; simp only; omega
      · rw [c2, valuesOf_cons_pos h8, orLast_cons]
      · rw [c3, valuesOf_cons_neg h9]
      · rw [c4, emEventsOf, if_pos h8]
      · rw [c5, eventsOf, if_pos h8]
      · rw [c6, emEventsOf, if_pos h8]
      · rw [emEventsOf, if_pos h8]; exact c7
      · rw [eventsOf, if_pos h8]; exact c8
    · rw [if_neg h8] at h
      by_cases h9 : w / 4096 = 9
      · rw [if_pos h9] at h
        by_cases hb : ((w % 4096 : Nat) : Int) < s.prevY
        · rw [if_pos hb] at h
          cases h
          rw [flen_stop h9 ((hp _).1 hb)]
          constructor <;> simp [valuesOf, eventsOf, emEventsOf, Safe, orLast]
        · rw [if_neg hb] at h
          have hb' : ¬ w % 4096 < prev := fun e => hb ((hp _).2 e)
          have := dense_spec p up ws _ x ((w % 4096 / p.hnorm : Nat) + p.dy) (w % 4096) s' h hx rfl
            (fun v => by simp only; omega)
          rw [flen_row h9 hb', List.take_succ_cons]
          obtain ⟨c1, c2, c3, c4, c5, c6, c7, c8⟩ := this
          constructor
          · rw [c1, List.length_cons]; simp only; omega
          · rw [c2, valuesOf_cons_neg h8]
          · rw [c3, valuesOf_cons_pos h9, List.getLast?_cons]
            cases (valuesOf 9 (List.take (flen (w % 4096) ws) ws)).getLast? <;> rfl
          · rw [c4, emEventsOf, if_neg h8, if_pos h9]
          · rw [c5, eventsOf, if_neg h8, if_pos h9]
          · rw [c6, emEventsOf, if_neg h8, if_pos h9]
          · rw [emEventsOf, if_neg h8, if_pos h9]; exact c7
          · rw [eventsOf, if_neg h8, if_pos h9]; exact c8
      · rw [if_neg h9] at h
        rw [flen_other h9, List.take_succ_cons]
        have v8 : ∀ l, valuesOf 8 (w :: l) = valuesOf 8 l := fun l => valuesOf_cons_neg h8
        have v9 : ∀ l, valuesOf 9 (w :: l) = valuesOf 9 l := fun l => valuesOf_cons_neg h9
        by_cases h10 : w / 4096 = 10 ∧ 0 ≤ s.x ∧ 0 ≤ s.y
        · rw [if_pos h10] at h
          have h11 : ¬ w / 4096 = 11 := by omega
          obtain ⟨ht, hx0, hy0⟩ := h10
          rw [hx] at hx0
          rw [hy] at hy0
          have ex : s.x = x := hx.trans (clip_eq hx0)
          have ey : s.y = y := hy.trans (clip_eq hy0)
          have hin := And.intro ht (And.intro (clip_nonneg.1 hx0) (clip_nonneg.1 hy0))
          split at h
          · cases h
          · rename_i hem
            have := dense_spec p up ws _ x y prev s' h hx hy hp
            obtain ⟨c1, c2, c3, c4, c5, c6, c7, c8⟩ := this
            constructor
            · rw [c1, List.length_cons]; simp only; omega
            · rw [c2, v8]
            · rw [c3, v9]
            · rw [c4, emEventsOf, if_neg h8, if_neg h9, if_pos hin]; simp
            · rw [c5, eventsOf, if_neg h8, if_neg h9, if_neg h11]
            · rw [c6, emEventsOf, if_neg h8, if_neg h9, if_pos hin, List.foldl_cons]
              simp only [applyEm, ex, ey]
            · rw [emEventsOf, if_neg h8, if_neg h9, if_pos hin, List.forall_mem_cons]
              refine ⟨?_, c7⟩
              simp only
              rw [ex, ey] at hem
              omega
            · rw [eventsOf, if_neg h8, if_neg h9, if_neg h11]; exact c8
        · rw [if_neg h10] at h
          have hne : ¬ (w / 4096 = 10 ∧ (0 ≤ x ∧ x < p.width) ∧ (0 ≤ y ∧ y < p.height)) := by
            intro ⟨a, b, c⟩
            apply h10
            rw [hx, hy]
            exact ⟨a, clip_nonneg.2 b, clip_nonneg.2 c⟩
          have em : ∀ l, emEventsOf p x y (w :: l) = emEventsOf p x y l := by
            intro l
            rw [emEventsOf, if_neg h8, if_neg h9, if_neg hne]
          by_cases h11 : w / 4096 = 11
          · rw [if_pos h11] at h
            by_cases hz : ((w % 4096 / p.rebin : Nat) : Int) + p.dz < p.channels ∧ 0 ≤ s.x ∧
                0 ≤ s.y ∧ 0 ≤ ((w % 4096 / p.rebin : Nat) : Int) + p.dz
            · rw [if_pos hz] at h
              obtain ⟨hz1, hx0, hy0, hz0⟩ := hz
              rw [hx] at hx0
              rw [hy] at hy0
              have ex : s.x = x := hx.trans (clip_eq hx0)
              have ey : s.y = y := hy.trans (clip_eq hy0)
              have hin := And.intro (clip_nonneg.1 hx0) (And.intro (clip_nonneg.1 hy0)
                (And.intro hz0 hz1))
              split at h
              · cases h
              · rename_i hmax
                have := dense_spec p up ws _ x y prev s' h hx hy hp
                have ev : ∀ l, eventsOf p x y (w :: l) =
                    (y, x, ((w % 4096 / p.rebin : Nat) : Int) + p.dz) :: eventsOf p x y l := by
                  intro l
                  rw [eventsOf, if_neg h8, if_neg h9, if_pos h11]
                  simp only
                  rw [if_pos hin]
                obtain ⟨c1, c2, c3, c4, c5, c6, c7, c8⟩ := this
                constructor
                · rw [c1, List.length_cons]; simp only; omega
                · rw [c2, v8]
                · rw [c3, v9]
                · rw [c4, em]
                · rw [c5, ev, List.foldl_cons]
                  simp only [applyEv, ex, ey]
                · rw [c6, em]
                · rw [em]; exact c7
                · rw [ev]
                  refine ⟨?_, ?_⟩
                  · simp only; rw [← ex, ← ey]; exact hmax
                  · simp only [ex, ey] at c8; exact c8
            · rw [if_neg hz] at h
              have := dense_spec p up ws _ x y prev s' h hx hy hp
              have ev : ∀ l, eventsOf p x y (w :: l) = eventsOf p x y l := by
                intro l
                rw [eventsOf, if_neg h8, if_neg h9, if_pos h11]
                simp only
                rw [if_neg]
                intro ⟨a, b, c⟩
                apply hz
                rw [hx, hy]
                exact ⟨c.2, clip_nonneg.2 a, clip_nonneg.2 b, c.1⟩
              obtain ⟨c1, c2, c3, c4, c5, c6, c7, c8⟩ := this
              constructor
              · rw [c1, List.length_cons]; simp only; omega
              · rw [c2, v8]
              · rw [c3, v9]
              · rw [c4, em]
              · rw [c5, ev]
              · rw [c6, em]
              · rw [em]; exact c7
              · rw [ev]; exact c8
          · rw [if_neg h11] at h
            have := dense_spec p up ws _ x y prev s' h hx hy hp
            have ev : ∀ l, eventsOf p x y (w :: l) = eventsOf p x y l := by
              intro l
              rw [eventsOf, if_neg h8, if_neg h9, if_neg h11]
            obtain ⟨c1, c2, c3, c4, c5, c6, c7, c8⟩ := this
            constructor
            · rw [c1, List.length_cons]; simp only; omega
            · rw [c2, v8]
            · rw [c3, v9]
            · rw [c4, em]
            · rw [c5, ev]
            · rw [c6, em]
            · rw [em]; exact c7
            · rw [ev]; exact c8

/-- The loop does not raise when no count reaches the maximum, unless an image word is outside the
image. -/
theorem dense_runs (p : Par) (up : Bool) : ∀ (ws : List Nat) (s : Dense) (x y : Int) (prev : Nat),
    s.x = clip p.width x → s.y = clip p.height y →
    (∀ v : Nat, (v : Int) < s.prevY ↔ v < prev) →
    Safe p.maxv up s.map (eventsOf p x y (ws.take (flen prev ws))) →
    (∃ s', denseLoop p up s ws = .ok s') ∨ denseLoop p up s ws = .error .indexError ∧
      ¬ ∀ e ∈ emEventsOf p x y (ws.take (flen prev ws)), e.1 < p.emRows ∧ e.2.1 < p.emCols
  | [], s, x, y, prev, _, _, _, _ => Or.inl ⟨s, rfl⟩
  | w :: ws, s, x, y, prev, hx, hy, hp, hs => by
    unfold denseLoop
    dsimp only
    by_cases h8 : w / 4096 = 8
    · rw [if_pos h8]
      have h9 : ¬ w / 4096 = 9 := by omega
      rw [flen_other h9, List.take_succ_cons] at hs ⊢
      rw [emEventsOf, if_pos h8]
      rw [eventsOf, if_pos h8] at hs
      exact dense_runs p up ws _ ((w % 4096 / p.wnorm : Nat) + p.dx) y prev rfl hy hp hs
    · rw [if_neg h8]
      by_cases h9 : w / 4096 = 9
      · rw [if_pos h9]
        by_cases hb : ((w % 4096 : Nat) : Int) < s.prevY
        · rw [if_pos hb]; exact Or.inl ⟨_, rfl⟩
        · rw [if_neg hb]
          have hb' : ¬ w % 4096 < prev := fun e => hb ((hp _).2 e)
          rw [flen_row h9 hb', List.take_succ_cons] at hs ⊢
          rw [emEventsOf, if_neg h8, if_pos h9]
          rw [eventsOf, if_neg h8, if_pos h9] at hs
          exact dense_runs p up ws _ x ((w % 4096 / p.hnorm : Nat) + p.dy) (w % 4096) hx rfl
            (fun v => by simp only; omega) hs
      · rw [if_neg h9]
        rw [flen_other h9, List.take_succ_cons] at hs ⊢
        rw [emEventsOf, if_neg h8, if_neg h9]
        rw [eventsOf, if_neg h8, if_neg h9] at hs
        by_cases h10 : w / 4096 = 10 ∧ 0 ≤ s.x ∧ 0 ≤ s.y
        · rw [if_pos h10]
          have h11 : ¬ w / 4096 = 11 := by omega
          obtain ⟨ht, hx0, hy0⟩ := h10
          rw [hx] at hx0
          rw [hy] at hy0
          have ex : s.x = x := hx.trans (clip_eq hx0)
          have ey : s.y = y := hy.trans (clip_eq hy0)
          have hin := And.intro ht (And.intro (clip_nonneg.1 hx0) (clip_nonneg.1 hy0))
          rw [if_pos hin, List.forall_mem_cons]
          rw [if_neg h11] at hs
          by_cases hem : p.emRows ≤ s.y ∨ p.emCols ≤ s.x
          · rw [if_pos hem]
            refine Or.inr ⟨rfl, fun h => ?_⟩
            have := h.1
            simp only at this
            rw [ex, ey] at hem
            omega
          · rw [if_neg hem]
            rcases dense_runs p up ws ⟨s.x, s.y, s.prevX, s.prevY, s.count + 1, true, s.map,
              setEm s.em s.y s.x (bumpEm p.emMod up (s.em s.y s.x) (w % 4096))⟩ x y prev hx hy hp hs with h | ⟨h1, h2⟩
            · exact Or.inl h
            · exact Or.inr ⟨h1, fun h => h2 h.2⟩
        · rw [if_neg h10]
          have hne : ¬ (w / 4096 = 10 ∧ (0 ≤ x ∧ x < p.width) ∧ (0 ≤ y ∧ y < p.height)) := by
            intro ⟨a, b, c⟩
            apply h10
            rw [hx, hy]
            exact ⟨a, clip_nonneg.2 b, clip_nonneg.2 c⟩
          rw [if_neg hne]
          by_cases h11 : w / 4096 = 11
          · rw [if_pos h11]
            rw [if_pos h11] at hs
            simp only at hs
            by_cases hz : ((w % 4096 / p.rebin : Nat) : Int) + p.dz < p.channels ∧ 0 ≤ s.x ∧
                0 ≤ s.y ∧ 0 ≤ ((w % 4096 / p.rebin : Nat) : Int) + p.dz
            · rw [if_pos hz]
              obtain ⟨hz1, hx0, hy0, hz0⟩ := hz
              rw [hx] at hx0
              rw [hy] at hy0
              have ex : s.x = x := hx.trans (clip_eq hx0)
              have ey : s.y = y := hy.trans (clip_eq hy0)
              have hin := And.intro (clip_nonneg.1 hx0) (And.intro (clip_nonneg.1 hy0)
                (And.intro hz0 hz1))
              rw [if_pos hin] at hs
              obtain ⟨hs1, hs2⟩ := hs
              simp only at hs1
              rw [ex, ey, if_neg hs1]
              exact dense_runs p up ws _ x y prev (clip_eq hx0).symm (clip_eq hy0).symm hp hs2
            · rw [if_neg hz]
              rw [if_neg] at hs
              · exact dense_runs p up ws _ x y prev hx hy hp hs
              · intro ⟨a, b, c⟩
                apply hz
                rw [hx, hy]
                exact ⟨c.2, clip_nonneg.2 a, clip_nonneg.2 b, c.1⟩
          · rw [if_neg h11]
            rw [if_neg h11] at hs
            exact dense_runs p up ws _ x y prev hx hy hp hs

/-! Counting. -/

theorem applyEv_at (maxv : Nat) (up : Bool) (m : Map) (e : Int × Int × Int) (y x z : Int) :
    applyEv maxv up m e y x z = if (y, x, z) = e then bump maxv up (m y x z) else m y x z := by
  obtain ⟨a, b, c⟩ := e
  unfold applyEv setMap
  by_cases h : y = a ∧ x = b ∧ z = c
  · obtain ⟨rfl, rfl, rfl⟩ := h; simp
  · rw [if_neg h, if_neg (by simpa using h)]

theorem count_cons' (e a : Int × Int × Int) (es : List (Int × Int × Int)) :
    (a :: es).count e = es.count e + if e = a then 1 else 0 := by
  rw [List.count_cons]
  by_cases h : e = a
  · simp [h]
  · have : ¬ a = e := fun h' => h h'.symm
    simp [h, this]

theorem fold_up (maxv : Nat) : ∀ (es : List (Int × Int × Int)) (m : Map),
    (∀ y x z, m y x z < maxv) → Safe maxv true m es →
    ∀ y x z, es.foldl (applyEv maxv true) m y x z = m y x z + es.count (y, x, z) ∧
      m y x z + es.count (y, x, z) < maxv
  | [], m, hm, _, y, x, z => by simpa using hm y x z
  | e :: es, m, hm, hs, y, x, z => by
    obtain ⟨hs1, hs2⟩ := hs
    have hb : ∀ y x z, bump maxv true (m y x z) = m y x z + 1 := by
      intro y x z
      have := hm y x z
      simp only [bump, if_true]
      rw [if_neg (by omega)]
    have hm' : ∀ y x z, applyEv maxv true m e y x z < maxv := by
      intro y x z
      rw [applyEv_at]
      split
      · rename_i he
        obtain ⟨a, b, c⟩ := e
        cases he
        simp only at hs1
        rw [hb] at hs1 ⊢
        have := hm y x z
        omega
      · exact hm y x z
    have := fold_up maxv es _ hm' hs2 y x z
    rw [List.foldl_cons, this.1, count_cons', applyEv_at, hb]
    have h2 := this.2
    rw [applyEv_at, hb] at h2
    split
    · rename_i he; rw [if_pos he] at h2; omega
    · rename_i he; rw [if_neg he] at h2; omega

theorem fold_down (maxv : Nat) : ∀ (es : List (Int × Int × Int)) (m : Map),
    (∀ y x z, es.count (y, x, z) ≤ m y x z ∧ m y x z < maxv) →
    Safe maxv false m es ∧
    ∀ y x z, es.foldl (applyEv maxv false) m y x z = m y x z - es.count (y, x, z)
  | [], m, hm => by simp [Safe]
  | e :: es, m, hm => by
    have hb : bump maxv false (m e.1 e.2.1 e.2.2) = m e.1 e.2.1 e.2.2 - 1 := by
      have h1 := (hm e.1 e.2.1 e.2.2).1
      rw [count_cons', if_pos rfl] at h1
      simp only [bump, Bool.false_eq_true, if_false]
      rw [if_neg (by omega)]
    have hat : ∀ y x z, applyEv maxv false m e y x z =
        m y x z - if (y, x, z) = e then 1 else 0 := by
      intro y x z
      rw [applyEv_at]
      split
      · rename_i he
        obtain ⟨a, b, c⟩ := e
        cases he
        exact hb
      · rfl
    have hm' : ∀ y x z, es.count (y, x, z) ≤ applyEv maxv false m e y x z ∧
        applyEv maxv false m e y x z < maxv := by
      intro y x z
      have := hm y x z
      rw [count_cons'] at this
      rw [hat]
      omega
    obtain ⟨i1, i2⟩ := fold_down maxv es _ hm'
    refine ⟨⟨?_, i1⟩, ?_⟩
    · rw [hb]
      have := (hm e.1 e.2.1 e.2.2).2
      omega
    · intro y x z
      rw [List.foldl_cons, i2, hat, count_cons']
      omega

theorem safe_of_lt (maxv : Nat) : ∀ (es : List (Int × Int × Int)) (m : Map),
    (∀ y x z, m y x z + es.count (y, x, z) < maxv) → Safe maxv true m es
  | [], _, _ => trivial
  | e :: es, m, hm => by
    have hb : ∀ y x z, bump maxv true (m y x z) = m y x z + 1 := by
      intro y x z
      have := hm y x z
      simp only [bump, if_true]
      rw [if_neg (by omega)]
    refine ⟨?_, safe_of_lt maxv es _ ?_⟩
    · rw [hb]
      have := hm e.1 e.2.1 e.2.2
      rw [count_cons', if_pos rfl] at this
      omega
    · intro y x z
      have := hm y x z
      rw [count_cons'] at this
      rw [applyEv_at, hb]
      split
      · rename_i he; rw [if_pos he] at this; omega
      · rename_i he; rw [if_neg he] at this; omega

/-- Sum of the image values of a pixel. -/
def emTotal (y x : Int) : List (Int × Int × Nat) → Int
  | [] => 0
  | e :: es => (if y = e.1 ∧ x = e.2.1 then (e.2.2 : Int) else 0) + emTotal y x es

theorem applyEm_at (md : Nat) (up : Bool) (m : Em) (e : Int × Int × Nat) (y x : Int) :
    applyEm md up m e y x = if y = e.1 ∧ x = e.2.1 then bumpEm md up (m y x) e.2.2 else m y x := by
  unfold applyEm setEm
  by_cases h : y = e.1 ∧ x = e.2.1
  · rw [if_pos h, if_pos h, h.1, h.2]
  · rw [if_neg h, if_neg h]

theorem bumpEm_mod (md v a : Nat) (up : Bool) (h : 0 < md) :
    bumpEm md up v a < md ∧
      ((bumpEm md up v a : Int) - (v + (if up then (a : Int) else -a))) % md = 0 := by
  cases up
  · simp only [bumpEm, Bool.false_eq_true, if_false]
    refine ⟨Nat.mod_lt _ h, ?_⟩
    have h1 : a % md < md := Nat.mod_lt _ h
    have e : ((v + (md - a % md) : Nat) : Int) = v + md - (a % md : Nat) := by omega
    rw [Int.natCast_emod, e]
    apply Int.emod_eq_zero_of_dvd
    have h2 : (md : Int) ∣ ((v : Int) + md - (a % md : Nat)) % md - ((v : Int) + md - (a % md : Nat)) :=
      ⟨-(((v : Int) + md - (a % md : Nat)) / md), by
        have := Int.emod_add_mul_ediv ((v : Int) + md - (a % md : Nat)) md
        rw [Int.mul_neg]; omega⟩
    have h3 : (md : Int) ∣ (a : Int) - (a % md : Nat) := by
      refine ⟨((a / md : Nat) : Int), ?_⟩
      have := Nat.mod_add_div a md
      rw [← Int.natCast_mul]
      omega
    have h4 : (md : Int) ∣ (md : Int) := Int.dvd_refl _
    have : (((v : Int) + md - (a % md : Nat)) % md - (v + -(a : Int))) =
        (((v : Int) + md - (a % md : Nat)) % md - ((v : Int) + md - (a % md : Nat))) +
          (((a : Int) - (a % md : Nat)) + md) := by omega
    rw [this]
    exact Int.dvd_add h2 (Int.dvd_add h3 h4)
  · simp only [bumpEm, if_true]
    refine ⟨Nat.mod_lt _ h, ?_⟩
    rw [Int.natCast_emod, Int.natCast_add]
    apply Int.emod_eq_zero_of_dvd
    refine ⟨-(((v : Int) + a) / md), ?_⟩
    have := Int.emod_add_mul_ediv ((v : Int) + a) md
    rw [Int.mul_neg]; omega

theorem fold_em (md : Nat) (up : Bool) (h : 0 < md) (y x : Int) :
    ∀ (es : List (Int × Int × Nat)) (m : Em), m y x < md →
    es.foldl (applyEm md up) m y x < md ∧
    (md : Int) ∣ (es.foldl (applyEm md up) m y x : Int) -
      (m y x + (if up then emTotal y x es else -emTotal y x es))
  | [], m, hm => by
    refine ⟨hm, ?_⟩
    cases up <;> simp [emTotal]
  | e :: es, m, hm => by
    have hb := bumpEm_mod md (m y x) e.2.2 up h
    have hm' : applyEm md up m e y x < md := by
      rw [applyEm_at]
      split
      · exact hb.1
      · exact hm
    obtain ⟨i1, i2⟩ := fold_em md up h y x es _ hm'
    refine ⟨i1, ?_⟩
    rw [List.foldl_cons]
    have h1 : (md : Int) ∣ (applyEm md up m e y x : Int) -
        (m y x + (if y = e.1 ∧ x = e.2.1 then (if up then (e.2.2 : Int) else -e.2.2) else 0)) := by
      rw [applyEm_at]
      split
      · exact Int.dvd_of_emod_eq_zero hb.2
      · simp
    have h2 := Int.dvd_add i2 h1
    have e3 : (List.foldl (applyEm md up) (applyEm md up m e) es y x : Int) -
        (m y x + (if up then emTotal y x (e :: es) else -emTotal y x (e :: es))) =
        ((List.foldl (applyEm md up) (applyEm md up m e) es y x : Int) -
          (applyEm md up m e y x + (if up then emTotal y x es else -emTotal y x es))) +
        ((applyEm md up m e y x : Int) -
          (m y x + (if y = e.1 ∧ x = e.2.1 then (if up then (e.2.2 : Int) else -e.2.2) else 0))) := by
      rw [emTotal]
      cases up <;> simp <;> split <;> omega
    rw [e3]
    exact h2

/-! Frames of a stream. -/

theorem frame_flen : ∀ (a b : List Nat) (prev : Nat), (prev :: valuesOf 9 a).Pairwise (· ≤ ·) →
    (∀ w t, b = w :: t → w / 4096 = 9 ∧ w % 4096 < (valuesOf 9 a).getLast?.getD prev) →
    flen prev (a ++ b) = a.length
  | [], [], prev, _, _ => rfl
  | [], w :: t, prev, _, h => by
    have := h w t rfl
    exact flen_stop this.1 (by simpa [valuesOf] using this.2)
  | w :: a, b, prev, hp, h => by
    by_cases h9 : w / 4096 = 9
    · rw [valuesOf_cons_pos h9] at hp h
      have h1 := List.pairwise_cons.1 hp
      have h2 : ¬ w % 4096 < prev := by have := h1.1 _ List.mem_cons_self; omega
      rw [List.cons_append, flen_row h9 h2, List.length_cons, frame_flen a b (w % 4096) h1.2 ?_]
      intro w' t e
      obtain ⟨j1, j2⟩ := h w' t e
      rw [List.getLast?_cons] at j2
      exact ⟨j1, j2⟩
    · rw [valuesOf_cons_neg h9] at hp h
      rw [List.cons_append, flen_other h9, List.length_cons, frame_flen a b prev hp h]

theorem isFrame_skip {a b : List Nat} (h : IsFrame a b) : skipFrame (a ++ b) = a.length := by
  refine frame_flen a b 0 ?_ ?_
  · rw [List.pairwise_cons]
    exact ⟨fun _ _ => Nat.zero_le _, h.1⟩
  · intro w t e
    obtain ⟨h1, y, h2, h3⟩ := h.2 w t e
    refine ⟨h1, ?_⟩
    rw [h2]; exact h3

/-- Start of frame `k`. -/
def startOf (fs : List (List Nat)) (k : Nat) : Nat := (fs.take k).flatten.length

theorem frames_flatten {raw : List Nat} {fs : List (List Nat)} (h : Frames raw fs) :
    fs.flatten = raw := by
  induction h with
  | nil => rfl
  | cons _ _ _ ih => rw [List.flatten_cons, ih]

theorem startOf_cons (a : List Nat) (fs : List (List Nat)) (k : Nat) :
    startOf (a :: fs) (k + 1) = a.length + startOf fs k := by
  simp [startOf]

theorem frames_drop {raw : List Nat} {fs : List (List Nat)} (h : Frames raw fs) :
    ∀ k, Frames (raw.drop (startOf fs k)) (fs.drop k) := by
  induction h with
  | nil => intro k; simpa [startOf] using Frames.nil
  | @cons a b fs h1 h2 h3 ih =>
    intro k
    cases k with
    | zero => simpa [startOf] using Frames.cons h1 h2 h3
    | succ k =>
      rw [startOf_cons, List.drop_succ_cons]
      have e : (a ++ b).drop (a.length + startOf fs k) = b.drop (startOf fs k) := by
        rw [List.drop_append]
        simp
      rw [e]
      exact ih k

/-- The frame at the beginning of the rest of the stream. -/
theorem frames_head {raw : List Nat} {fs : List (List Nat)} (h : Frames raw fs) :
    raw.take (skipFrame raw) = fs.headD [] ∧ skipFrame raw = (fs.headD []).length := by
  cases h with
  | nil => exact ⟨rfl, rfl⟩
  | cons h1 h2 h3 =>
    rw [isFrame_skip h2]
    exact ⟨List.take_left' rfl, rfl⟩

theorem frames_at {raw : List Nat} {fs : List (List Nat)} (h : Frames raw fs) (k : Nat) :
    (raw.drop (startOf fs k)).take (skipFrame (raw.drop (startOf fs k))) = fs.getD k [] ∧
      skipFrame (raw.drop (startOf fs k)) = (fs.getD k []).length := by
  have := frames_head (frames_drop h k)
  have e : (fs.drop k).headD [] = fs.getD k [] := by
    rw [List.headD_eq_head?_getD, List.head?_drop, List.getD_eq_getElem?_getD]
  rwa [e] at this

theorem startOf_succ (fs : List (List Nat)) (k : Nat) :
    startOf fs (k + 1) = startOf fs k + (fs.getD k []).length := by
  induction fs generalizing k with
  | nil => simp [startOf]
  | cons a fs ih =>
    cases k with
    | zero => simp [startOf]
    | succ k => rw [startOf_cons, ih, startOf_cons]; simp; omega

/-- Known starts are right, and the first is known. -/
def Table (fs : List (List Nat)) (idx : List (Option Nat)) : Prop :=
  idx[0]? = some (some 0) ∧ ∀ i s, idx[i]? = some (some s) → s = startOf fs i

theorem table_set {fs : List (List Nat)} {idx : List (Option Nat)} (h : Table fs idx) (k : Nat) :
    Table fs (idx.set (k + 1) (some (startOf fs (k + 1)))) := by
  refine ⟨by rw [List.getElem?_set_ne (by omega)]; exact h.1, ?_⟩
  intro i s hi
  by_cases hk : k + 1 = i
  · subst hk
    rw [List.getElem?_set] at hi
    simp only [if_true] at hi
    split at hi
    · cases hi; rfl
    · cases hi
  · rw [List.getElem?_set_ne hk] at hi
    exact h.2 i s hi

theorem lastKnown_ok {fs : List (List Nat)} {idx : List (Option Nat)} (h : Table fs idx) :
    ∀ k, k < idx.length → ∃ i, i ≤ k ∧ lastKnown idx k = .ok (i, startOf fs i)
  | 0, _ => by
    refine ⟨0, Nat.le_refl _, ?_⟩
    have := h.1
    cases idx with
    | nil => simp at this
    | cons a t =>
      simp only [List.getElem?_cons_zero, Option.some.injEq] at this
      subst this
      simp [lastKnown, startOf]
  | k + 1, hk => by
    unfold lastKnown
    rw [List.getElem?_eq_getElem hk]
    cases ho : idx[k + 1] with
    | none =>
      simp only
      obtain ⟨i, hi, he⟩ := lastKnown_ok h k (by omega)
      exact ⟨i, by omega, he⟩
    | some s =>
      simp only
      have := h.2 (k + 1) s (by rw [List.getElem?_eq_getElem hk, ho])
      exact ⟨k + 1, Nat.le_refl _, by rw [this]⟩

theorem skipTo_ok {raw : List Nat} {fs : List (List Nat)} (hf : Frames raw fs) :
    ∀ (n i : Nat) (idx : List (Option Nat)), Table fs idx →
    ∃ idx', skipTo raw n i (startOf fs i) idx = (startOf fs (i + n), idx') ∧ Table fs idx' ∧
      idx'.length = idx.length
  | 0, i, idx, h => ⟨idx, rfl, h, rfl⟩
  | n + 1, i, idx, h => by
    unfold skipTo
    simp only
    rw [(frames_at hf i).2, ← startOf_succ]
    obtain ⟨idx', h1, h2, h3⟩ := skipTo_ok hf n (i + 1) _ (table_set h i)
    refine ⟨idx', ?_, h2, by rw [h3, List.length_set]⟩
    rw [h1]
    rw [show i + 1 + n = i + (n + 1) from by omega]

theorem frameStart_ok {raw : List Nat} {fs : List (List Nat)} (hf : Frames raw fs)
    {idx : List (Option Nat)} (h : Table fs idx) {k : Nat} (hk : k < idx.length) :
    ∃ idx', frameStart raw idx k = .ok (startOf fs k, idx') ∧ Table fs idx' ∧
      idx'.length = idx.length := by
  obtain ⟨i, hi, he⟩ := lastKnown_ok h k hk
  obtain ⟨idx', h1, h2, h3⟩ := skipTo_ok hf (k - i) i idx h
  refine ⟨idx', ?_, h2, h3⟩
  rw [frameStart, he]
  simp only
  rw [h1, show i + (k - i) = k from by omega]

end Verif.Jeol
