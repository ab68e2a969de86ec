import Verif.Lemmas.Jeol
/-! C43, C44, C45, C55: event streams of JEOL .pts files. -/
namespace Verif.Props.Jeol
open Verif Verif.Jeol

/-- C43: skipping a frame moves to its end. -/
theorem C43_skip (ws : List Nat) :
    IsFrame (ws.take (skipFrame ws)) (ws.drop (skipFrame ws)) := by
  obtain ⟨h1, h2⟩ := flen_frame ws 0
  refine ⟨(List.pairwise_cons.1 h1).2, ?_⟩
  intro w t e
  obtain ⟨j1, j2⟩ := h2 w t e
  refine ⟨j1, ?_⟩
  change _ < (valuesOf 9 (ws.take (skipFrame ws))).getLast?.getD 0 at j2
  cases hl : (valuesOf 9 (ws.take (skipFrame ws))).getLast? with
  | none => rw [hl] at j2; simp at j2
  | some y => rw [hl] at j2; exact ⟨y, rfl, j2⟩

/-- The end of a frame is unique. -/
theorem C43_unique {a b : List Nat} (h : IsFrame a b) : skipFrame (a ++ b) = a.length :=
  isFrame_skip h

theorem skip_pos {ws : List Nat} (h : ws ≠ []) : 0 < skipFrame ws := by
  cases ws with
  | nil => exact absurd rfl h
  | cons w ws =>
    change 0 < flen 0 (w :: ws)
    by_cases h9 : w / 4096 = 9
    · rw [flen_row h9 (by omega)]; omega
    · rw [flen_other h9]; omega

/-- Every stream is cut into frames. -/
theorem frames_exist : ∀ (n : Nat) (raw : List Nat), raw.length ≤ n → ∃ fs, Frames raw fs
  | 0, raw, h => by
    have : raw = [] := List.length_eq_zero_iff.1 (by omega)
    exact ⟨[], this ▸ .nil⟩
  | n + 1, raw, h => by
    by_cases hr : raw = []
    · exact ⟨[], hr ▸ .nil⟩
    · have hp := skip_pos hr
      have hl : skipFrame raw ≤ raw.length := flen_le raw 0
      obtain ⟨fs, hfs⟩ := frames_exist n (raw.drop (skipFrame raw)) (by
        rw [List.length_drop]
        have : 0 < raw.length := List.length_pos_iff.2 hr
        omega)
      refine ⟨raw.take (skipFrame raw) :: fs, ?_⟩
      have := Frames.cons (a := raw.take (skipFrame raw)) (by
        intro e
        have := congrArg List.length e
        rw [List.length_take] at this
        simp only [List.length_nil] at this
        omega) (C43_skip raw) hfs
      rwa [List.take_append_drop] at this

/-- What reading one frame returns. -/
theorem readDense_spec (p : Par) (up : Bool) (m : Map) (e : Em) (ws : List Nat) (r : Read)
    (hw : 0 < p.width) (hh : 0 < p.height) (hn : p.hnorm ≤ 4096)
    (h : readDense p up m e ws = .ok r) :
    r.count = skipFrame ws ∧ (r.valid = true ↔ Complete p (ws.take (skipFrame ws))) ∧
    r.map = (eventsOf p 0 0 (ws.take (skipFrame ws))).foldl (applyEv p.maxv up) m ∧
    r.em = (emEventsOf p 0 0 (ws.take (skipFrame ws))).foldl (applyEm p.emMod up) e ∧
    (∀ ev ∈ emEventsOf p 0 0 (ws.take (skipFrame ws)), ev.1 < p.emRows ∧ ev.2.1 < p.emCols) ∧
    Safe p.maxv up m (eventsOf p 0 0 (ws.take (skipFrame ws))) := by
  unfold readDense at h
  cases hd : denseLoop p up ⟨0, 0, none, -1, 0, false, m, e⟩ ws with
  | error er => rw [hd] at h; cases h
  | ok s =>
    rw [hd] at h
    have hs := dense_spec p up ws _ 0 0 0 s hd (by simp [clip]; omega) (by simp [clip]; omega)
      (fun v => by simp only; omega)
    change DenseSpec p up _ 0 0 (ws.take (skipFrame ws)) s at hs
    obtain ⟨c1, c2, c3, c4, c5, c6, c7, c8⟩ := hs
    have hcount : s.count = skipFrame ws := by
      rw [c1, List.length_take]
      have : skipFrame ws ≤ ws.length := flen_le ws 0
      simp only
      omega
    simp only at c2 c3 c4 c5 c6 c8
    have hy : ∀ k : Nat, k ≤ 4096 → (4096 - (k : Int) ≤ s.prevY ↔
        ∃ y, (valuesOf 9 (ws.take (skipFrame ws))).getLast? = some y ∧ 4096 ≤ y + k) := by
      intro k hk
      rw [c3]
      cases (valuesOf 9 (ws.take (skipFrame ws))).getLast? with
      | none => simp; omega
      | some y => simp; omega
    have hem : s.hasEm = false ↔ emEventsOf p 0 0 (ws.take (skipFrame ws)) = [] := by
      rw [c4]
      simp [List.isEmpty_iff]
    simp only at h
    by_cases hc : 4096 - (p.hnorm : Int) ≤ s.prevY
    · rw [if_pos hc] at h
      cases hpx : s.prevX with
      | none => rw [hpx] at h; cases h
      | some px =>
        rw [hpx] at h
        obtain rfl := Except.ok.inj h
        refine ⟨hcount, ?_, c5, c6, c7, c8⟩
        have hpx' : (valuesOf 8 (ws.take (skipFrame ws))).getLast? = some px := by
          rw [hpx] at c2
          unfold orLast at c2
          cases hl : (valuesOf 8 (ws.take (skipFrame ws))).getLast? with
          | none => rw [hl] at c2; simp at c2
          | some v => rw [hl] at c2; simpa using c2.symm
        simp only [Bool.or_eq_true, decide_eq_true_eq, Bool.not_eq_true', Complete]
        rw [hem, hpx', hy p.hnorm hn] at *
        constructor
        · intro hv
          refine ⟨hc, ?_⟩
          rcases hv with hv | hv
          · exact Or.inr ⟨px, rfl, by omega⟩
          · exact Or.inl hv
        · rintro ⟨-, hv | ⟨x, hx, hx'⟩⟩
          · exact Or.inr hv
          · cases hx
            exact Or.inl (by omega)
    · rw [if_neg hc] at h
      obtain rfl := Except.ok.inj h
      refine ⟨hcount, ?_, c5, c6, c7, c8⟩
      rw [hy p.hnorm hn] at hc
      simp only [Bool.false_eq_true, false_iff]
      exact fun hv => hc hv.1

/-- C43: reading a frame (in memory) moves to the same place as skipping it. -/
theorem C43_read_skip (p : Par) (up : Bool) (m : Map) (e : Em) (ws : List Nat) (r : Read)
    (hw : 0 < p.width) (hh : 0 < p.height) (hn : p.hnorm ≤ 4096)
    (h : readDense p up m e ws = .ok r) : r.count = skipFrame ws :=
  (readDense_spec p up m e ws r hw hh hn h).1

/-- Parameters that `_read_pts` uses: a map with pixels, and rows that are at most the whole range. -/
def Sane (p : Par) : Prop := 0 < p.width ∧ 0 < p.height ∧ p.hnorm ≤ 4096 ∧ 0 < p.maxv

/-- A frame that is accepted: it has data and is complete, unless incomplete ones are wanted. -/
def Accepted (p : Par) (onlyValid : Bool) (a : List Nat) : Prop :=
  a ≠ [] ∧ (onlyValid = true → Complete p a)

/-- C43 (with the counts of C45): for every stream, whose frames are `fs`, and every list of frame
numbers, frames loaded in memory are the frames with these numbers, whatever other frames are in the
list and whatever starts are known, until one that is absent or not accepted. -/
theorem C43_frames {raw : List Nat} {fs : List (List Nat)} (hf : Frames raw fs) (par : Nat → Par)
    (hpar : ∀ k, Sane (par k)) (onlyValid : Bool) : ∀ (ks : List Nat) (idx : List (Option Nat))
    (ms : List Map) (idx' : List (Option Nat)), Table fs idx → (∀ k ∈ ks, k < idx.length) →
    cubeFrames par onlyValid raw ks idx = .ok (ms, idx') →
    Table fs idx' ∧ ms = (ks.take ms.length).map (fun k => counts (par k) (fs.getD k [])) ∧
      (∀ k ∈ ks.take ms.length, Accepted (par k) onlyValid (fs.getD k [])) ∧
      ∀ k, ks[ms.length]? = some k → ¬ Accepted (par k) onlyValid (fs.getD k [])
  | [], idx, ms, idx', ht, _, h => by
    obtain ⟨rfl, rfl⟩ := Prod.mk.inj (Except.ok.inj h)
    exact ⟨ht, rfl, by simp, by simp⟩
  | k :: ks, idx, ms, idx', ht, hk, h => by
    rw [List.forall_mem_cons] at hk
    obtain ⟨idx1, h1, h2, h3⟩ := frameStart_ok hf ht hk.1
    unfold cubeFrames at h
    rw [h1] at h
    simp only at h
    obtain ⟨s1, s2, s3, s4⟩ := hpar k
    obtain ⟨f1, f2⟩ := frames_at hf k
    cases hr : readDense (par k) true emptyMap emptyEm (raw.drop (startOf fs k)) with
    | error er => rw [hr] at h; cases h
    | ok r =>
      rw [hr] at h
      simp only at h
      obtain ⟨c1, c2, c3, -, -, c6⟩ := readDense_spec (par k) true _ _ _ r s1 s2 s3 hr
      rw [f1] at c2 c3 c6
      rw [f2] at c1
      have hmap : r.map = counts (par k) (fs.getD k []) := by
        funext y x z
        rw [c3, (fold_up _ _ emptyMap (fun _ _ _ => s4) c6 y x z).1]
        simp [counts, emptyMap]
      by_cases h0 : r.count = 0
      · rw [if_pos h0] at h
        obtain ⟨rfl, rfl⟩ := Prod.mk.inj (Except.ok.inj h)
        refine ⟨h2, rfl, by simp, ?_⟩
        intro k' hk'
        simp only [List.length_nil, List.getElem?_cons_zero, Option.some.injEq] at hk'
        subst hk'
        intro ha
        exact ha.1 (List.length_eq_zero_iff.1 (by omega))
      · rw [if_neg h0] at h
        have hne : fs.getD k [] ≠ [] := by
          intro e; rw [e] at c1; exact h0 c1
        by_cases hv : (r.valid || !onlyValid) = true
        · rw [if_pos hv] at h
          have hacc : Accepted (par k) onlyValid (fs.getD k []) := by
            refine ⟨hne, fun ho => c2.1 ?_⟩
            rw [ho] at hv
            simpa using hv
          rw [c1, ← startOf_succ] at h
          cases hrec : cubeFrames par onlyValid raw ks
              (idx1.set (k + 1) (some (startOf fs (k + 1)))) with
          | error er => rw [hrec] at h; cases h
          | ok q =>
            obtain ⟨ms1, idx2⟩ := q
            rw [hrec] at h
            obtain ⟨rfl, rfl⟩ := Prod.mk.inj (Except.ok.inj h)
            obtain ⟨i1, i2, i3, i4⟩ := C43_frames hf par hpar onlyValid ks _ ms1 idx2
              (table_set h2 k) (fun k' hk' => by
                rw [List.length_set, h3]; exact hk.2 k' hk') hrec
            refine ⟨i1, ?_, ?_, ?_⟩
            · rw [List.length_cons, List.take_succ_cons, List.map_cons, ← i2, hmap]
            · rw [List.length_cons, List.take_succ_cons, List.forall_mem_cons]
              exact ⟨hacc, i3⟩
            · intro k' hk'
              rw [List.length_cons, List.getElem?_cons_succ] at hk'
              exact i4 k' hk'
        · rw [if_neg hv] at h
          obtain ⟨rfl, rfl⟩ := Prod.mk.inj (Except.ok.inj h)
          refine ⟨h2, rfl, by simp, ?_⟩
          intro k' hk'
          simp only [List.length_nil, List.getElem?_cons_zero, Option.some.injEq] at hk'
          subst hk'
          intro ha
          have hv' : r.valid = false ∧ onlyValid = true := by simpa using hv
          have := c2.2 (ha.2 hv'.2)
          rw [hv'.1] at this
          cases this

/-- C45: in-memory reading adds exactly one per event, and no count reaches the largest value of the
dtype. -/
theorem C45_exact (p : Par) (m : Map) (e : Em) (ws : List Nat) (r : Read) (hp : Sane p)
    (hm : ∀ y x z, m y x z < p.maxv) (h : readDense p true m e ws = .ok r) (y x z : Int) :
    r.map y x z = m y x z + counts p (ws.take (skipFrame ws)) y x z ∧ r.map y x z < p.maxv := by
  obtain ⟨-, -, c3, -, -, c6⟩ := readDense_spec p true m e ws r hp.1 hp.2.1 hp.2.2.1 h
  have := fold_up _ _ m hm c6 y x z
  rw [c3, this.1]
  exact ⟨rfl, this.2⟩

/-- C45: the error of a dtype that is too small is raised only if some count would reach its largest
value. -/
theorem C45_error (p : Par) (m : Map) (e : Em) (ws : List Nat) (hp : Sane p)
    (h : readDense p true m e ws = .error .valueError) :
    ∃ y x z, p.maxv ≤ m y x z + counts p (ws.take (skipFrame ws)) y x z := by
  apply Classical.byContradiction
  intro hn
  have hlt : ∀ y x z, m y x z + (eventsOf p 0 0 (ws.take (skipFrame ws))).count (y, x, z) <
      p.maxv := by
    intro y x z
    apply Nat.lt_of_not_le
    intro hle
    exact hn ⟨y, x, z, hle⟩
  have hr := dense_runs p true ws ⟨0, 0, none, -1, 0, false, m, e⟩ 0 0 0
    (by have := hp.1; simp [clip]; omega) (by have := hp.2.1; simp [clip]; omega)
    (fun v => by simp only; omega) (safe_of_lt p.maxv _ m hlt)
  unfold readDense at h
  rcases hr with ⟨s, hs⟩ | ⟨he, -⟩
  · rw [hs] at h
    simp only at h
    split at h
    · split at h <;> cases h
    · cases h
  · rw [he] at h; cases h

/-- C45: a count that does not fit is never returned: the call raises. -/
theorem C45_never_silent (p : Par) (m : Map) (e : Em) (ws : List Nat) (hp : Sane p)
    (hm : ∀ y x z, m y x z < p.maxv) (y x z : Int)
    (ho : p.maxv ≤ m y x z + counts p (ws.take (skipFrame ws)) y x z) :
    ∃ er, readDense p true m e ws = .error er := by
  cases h : readDense p true m e ws with
  | error er => exact ⟨er, rfl⟩
  | ok r =>
    have := C45_exact p m e ws r hp hm h y x z
    omega

/-- C45: reading a frame and then subtracting it leaves the spectrum image and the S(T)EM image
exactly as before; the subtraction never raises. -/
theorem C45_no_trace (p : Par) (m : Map) (e : Em) (ws : List Nat) (r : Read) (hp : Sane p)
    (hm : ∀ y x z, m y x z < p.maxv) (he : ∀ y x, e y x < p.emMod)
    (h : readDense p true m e ws = .ok r) :
    ∃ r', readDense p false r.map r.em ws = .ok r' ∧ r'.map = m ∧ r'.em = e := by
  obtain ⟨c1, c2, c3, c4, c5, c6⟩ := readDense_spec p true m e ws r hp.1 hp.2.1 hp.2.2.1 h
  have hup := fold_up _ _ m hm c6
  have hdown := fold_down p.maxv (eventsOf p 0 0 (ws.take (skipFrame ws))) r.map (by
    intro y x z
    rw [c3, (hup y x z).1]
    have := (hup y x z).2
    omega)
  have hruns := dense_runs p false ws ⟨0, 0, none, -1, 0, false, r.map, r.em⟩ 0 0 0
    (by have := hp.1; simp [clip]; omega) (by have := hp.2.1; simp [clip]; omega)
    (fun v => by simp only; omega) hdown.1
  have hok : ∃ r', readDense p false r.map r.em ws = .ok r' := by
    rcases hruns with ⟨s', hs'⟩ | ⟨-, hbad⟩
    · unfold readDense at h ⊢
      rw [hs']
      cases hd : denseLoop p true ⟨0, 0, none, -1, 0, false, m, e⟩ ws with
      | error er => rw [hd] at h; cases h
      | ok s =>
        rw [hd] at h
        have hs1 := dense_spec p true ws _ 0 0 0 s hd (by have := hp.1; simp [clip]; omega)
          (by have := hp.2.1; simp [clip]; omega) (fun v => by simp only; omega)
        have hs2 := dense_spec p false ws _ 0 0 0 s' hs' (by have := hp.1; simp [clip]; omega)
          (by have := hp.2.1; simp [clip]; omega) (fun v => by simp only; omega)
        have hpx : s'.prevX = s.prevX := by rw [hs1.prevX, hs2.prevX]
        have hpy : s'.prevY = s.prevY := by rw [hs1.prevY, hs2.prevY]
        simp only at h ⊢
        rw [hpx, hpy]
        split at h
        · rename_i hc
          rw [if_pos hc]
          cases hx : s.prevX with
          | none => rw [hx] at h; cases h
          | some px => exact ⟨_, rfl⟩
        · rename_i hc
          rw [if_neg hc]
          exact ⟨_, rfl⟩
    · exact absurd c5 hbad
  obtain ⟨r', hr'⟩ := hok
  refine ⟨r', hr', ?_, ?_⟩
  · obtain ⟨-, -, d3, -, -, -⟩ := readDense_spec p false _ _ ws r' hp.1 hp.2.1 hp.2.2.1 hr'
    funext y x z
    rw [d3, hdown.2 y x z, c3, (hup y x z).1]
    omega
  · obtain ⟨-, -, -, d4, -, -⟩ := readDense_spec p false _ _ ws r' hp.1 hp.2.1 hp.2.2.1 hr'
    funext y x
    have hmd : 0 < p.emMod := by have := he y x; omega
    obtain ⟨u1, u2⟩ := fold_em p.emMod true hmd y x
      (emEventsOf p 0 0 (ws.take (skipFrame ws))) e (he y x)
    rw [← c4] at u1 u2
    obtain ⟨v1, v2⟩ := fold_em p.emMod false hmd y x
      (emEventsOf p 0 0 (ws.take (skipFrame ws))) r.em u1
    rw [← d4] at v1 v2
    have hd := Int.dvd_add u2 v2
    simp only [if_true, Bool.false_eq_true, if_false] at hd
    have e1 : ((r.em y x : Int) - (e y x + emTotal y x (emEventsOf p 0 0
        (ws.take (skipFrame ws))))) + ((r'.em y x : Int) - (r.em y x + -emTotal y x (emEventsOf p 0 0
        (ws.take (skipFrame ws))))) = (r'.em y x : Int) - e y x := by omega
    rw [e1] at hd
    have h2 := he y x
    obtain ⟨q, hq⟩ := hd
    have hq0 : q = 0 := by
      rcases Int.lt_trichotomy q 0 with h0 | h0 | h0
      · have : (p.emMod : Int) * q ≤ p.emMod * (-1) :=
          Int.mul_le_mul_of_nonneg_left (by omega) (by omega)
        omega
      · exact h0
      · have : (p.emMod : Int) * 1 ≤ p.emMod * q :=
          Int.mul_le_mul_of_nonneg_left (by omega) (by omega)
        omega
    rw [hq0, Int.mul_zero] at hq
    omega

/-- Sum of the counts of some frames. -/
def sumCounts (par : Nat → Par) (fs : List (List Nat)) (y x z : Int) : List Nat → Nat
  | [] => 0
  | k :: ks => counts (par k) (fs.getD k []) y x z + sumCounts par fs y x z ks

/-- C45: the sum over frames is exactly that of the frames accepted; a frame that is rejected, and
those after it, add nothing. All frames have one dtype `maxv` and one image modulus `md`. -/
theorem C45_sum {raw : List Nat} {fs : List (List Nat)} (hf : Frames raw fs) (par : Nat → Par)
    (maxv md : Nat) (hpar : ∀ k, Sane (par k) ∧ (par k).maxv = maxv ∧ (par k).emMod = md)
    (onlyValid : Bool) : ∀ (ks : List Nat) (idx : List (Option Nat)) (m m' : Map) (e e' : Em),
    Table fs idx → (∀ k ∈ ks, k < idx.length) → (∀ y x z, m y x z < maxv) → (∀ y x, e y x < md) →
    cubeSum par onlyValid raw ks idx m e = .ok (m', e') →
    ∃ n, (∀ y x z, m' y x z = m y x z + sumCounts par fs y x z (ks.take n) ∧ m' y x z < maxv) ∧
      (∀ k ∈ ks.take n, Accepted (par k) onlyValid (fs.getD k [])) ∧
      (∀ k, ks[n]? = some k → ¬ Accepted (par k) onlyValid (fs.getD k []))
  | [], idx, m, m', e, e', _, _, hm, _, h => by
    obtain ⟨rfl, rfl⟩ := Prod.mk.inj (Except.ok.inj h)
    exact ⟨0, fun y x z => ⟨rfl, hm y x z⟩, by simp, by simp⟩
  | k :: ks, idx, m, m', e, e', ht, hk, hm, he, h => by
    rw [List.forall_mem_cons] at hk
    obtain ⟨idx1, h1, h2, h3⟩ := frameStart_ok hf ht hk.1
    unfold cubeSum at h
    rw [h1] at h
    simp only at h
    obtain ⟨hs, hmax, hmd⟩ := hpar k
    obtain ⟨f1, f2⟩ := frames_at hf k
    cases hr : readDense (par k) true m e (raw.drop (startOf fs k)) with
    | error er => rw [hr] at h; cases h
    | ok r =>
      rw [hr] at h
      simp only at h
      obtain ⟨c1, c2, c3, c4, -, c6⟩ :=
        readDense_spec (par k) true _ _ _ r hs.1 hs.2.1 hs.2.2.1 hr
      have hex := C45_exact (par k) m e _ r hs (by rw [hmax]; exact hm) hr
      rw [f1] at c2 c3 c4 c6 hex
      rw [f2] at c1
      by_cases h0 : r.count = 0
      · rw [if_pos h0] at h
        obtain ⟨rfl, rfl⟩ := Prod.mk.inj (Except.ok.inj h)
        have hnil : fs.getD k [] = [] := List.length_eq_zero_iff.1 (by omega)
        refine ⟨0, ?_, by simp, ?_⟩
        · intro y x z
          have hx := hex y x z
          rw [hnil] at hx
          rw [hmax] at hx
          refine ⟨?_, hx.2⟩
          rw [hx.1]
          simp [counts, eventsOf, sumCounts]
        · intro k' hk'
          simp only [List.getElem?_cons_zero, Option.some.injEq] at hk'
          subst hk'
          exact fun ha => ha.1 hnil
      · rw [if_neg h0] at h
        have hne : fs.getD k [] ≠ [] := by
          intro e; rw [e] at c1; exact h0 c1
        by_cases hv : (r.valid || !onlyValid) = true
        · rw [if_pos hv, c1, ← startOf_succ] at h
          have hacc : Accepted (par k) onlyValid (fs.getD k []) := by
            refine ⟨hne, fun ho => c2.1 ?_⟩
            rw [ho] at hv
            simpa using hv
          have hmdpos : ∀ y x, r.em y x < md := by
            intro y x
            have := (fold_em (par k).emMod true (by have := he y x; omega) y x
              (emEventsOf (par k) 0 0 (fs.getD k [])) e (by rw [hmd]; exact he y x)).1
            rw [← c4, hmd] at this
            exact this
          obtain ⟨n, i1, i2, i3⟩ := C45_sum hf par maxv md hpar onlyValid ks _ r.map m' r.em e'
            (table_set h2 k) (fun k' hk' => by rw [List.length_set, h3]; exact hk.2 k' hk')
            (fun y x z => by have := (hex y x z).2; rw [hmax] at this; exact this) hmdpos h
          refine ⟨n + 1, ?_, ?_, ?_⟩
          · intro y x z
            refine ⟨?_, (i1 y x z).2⟩
            rw [(i1 y x z).1, (hex y x z).1, List.take_succ_cons, sumCounts]
            omega
          · rw [List.take_succ_cons, List.forall_mem_cons]
            exact ⟨hacc, i2⟩
          · intro k' hk'
            rw [List.getElem?_cons_succ] at hk'
            exact i3 k' hk'
        · rw [if_neg hv] at h
          obtain ⟨r', hr', hm', he'⟩ := C45_no_trace (par k) m e _ r hs
            (by rw [hmax]; exact hm) (by rw [hmd]; exact he) hr
          rw [hr'] at h
          obtain ⟨rfl, rfl⟩ := Prod.mk.inj (Except.ok.inj h)
          refine ⟨0, ?_, by simp, ?_⟩
          · intro y x z
            rw [hm']
            exact ⟨by simp [sumCounts], hm y x z⟩
          · intro k' hk'
            simp only [List.getElem?_cons_zero, Option.some.injEq] at hk'
            subst hk'
            intro ha
            have hv' : r.valid = false ∧ onlyValid = true := by simpa using hv
            have := c2.2 (ha.2 hv'.2)
            rw [hv'.1] at this
            cases this

/-! Concrete streams. Row `y` is the word `0x9000 + y`, column `x` is `0x8000 + x`, an event in channel
`z` is `0xB000 + z`, an image value is `0xA000 + v`. -/

def row (y : Nat) : Nat := 0x9000 + y
def col (x : Nat) : Nat := 0x8000 + x
def ev (z : Nat) : Nat := 0xB000 + z
def img (v : Nat) : Nat := 0xA000 + v

/-- A map of 2 × 2 pixels and 4096 channels, counted in `uint8`. -/
def square : Par := ⟨2, 2, 4096, 2048, 2048, 1, 0, 0, 0, 255, 2, 2, 65536⟩

def twoFrames : List Nat :=
  [row 0, col 0, img 5, ev 7, col 2048, ev 8, ev 8, row 2048, col 0, col 2048, img 6, ev 9,
   row 0, col 0, ev 7, row 2048, col 2048, img 1]

example : Frames twoFrames [twoFrames.take 12, twoFrames.drop 12] := by
  refine Frames.cons (a := twoFrames.take 12) (b := twoFrames.drop 12) (by decide) ?_ ?_
  · refine ⟨by decide +kernel, ?_⟩
    intro w t e
    cases e
    exact ⟨by decide, 2048, by decide +kernel, by decide⟩
  · refine Frames.cons (a := twoFrames.drop 12) (b := []) (by decide) ?_ .nil
    exact ⟨by decide +kernel, fun w t e => by cases e⟩

example : Sane square ∧ Table [twoFrames.take 12, twoFrames.drop 12] [some 0, none] := by
  refine ⟨⟨by decide, by decide, by decide, by decide⟩, rfl, ?_⟩
  intro i s h
  match i, h with
  | 0, h => cases h; rfl
  | 1, h => cases h
  | i + 2, h => cases h

/-- Both frames are read; the second alone is the same. -/
example : ((cubeFrames (fun _ => square) true twoFrames [0, 1] [some 0, none]).toOption.map
      fun q => (q.1.map fun m => [m 0 0 7, m 0 1 8, m 1 1 9], q.2)) =
      some ([[1, 2, 1], [1, 0, 0]], [some 0, some 12]) ∧
    ((cubeFrames (fun _ => square) true twoFrames [1] [some 0, none]).toOption.map
      fun q => (q.1.map fun m => [m 0 0 7, m 0 1 8, m 1 1 9], q.2)) =
      some ([[1, 0, 0]], [some 0, some 12]) := by
  decide +kernel

/-- Summing with an incomplete last frame: it is taken back. -/
example : ((cubeSum (fun _ => square) true (twoFrames ++ [row 0, col 0, ev 7]) [0, 1, 2]
      [some 0, none, none] emptyMap emptyEm).toOption.map
      fun q => ([q.1 0 0 7, q.1 0 1 8, q.1 1 1 9], [q.2 0 0, q.2 1 1])) =
      some ([2, 2, 1], [5, 7]) := by
  decide +kernel

/-- A dtype that is too small: three counts in a two-bit type. -/
example : (readDense { square with maxv := 3 } true emptyMap emptyEm
    [row 0, col 0, ev 1, ev 1, ev 1]).toOption.isNone ∧
    (readDense { square with maxv := 3 } true emptyMap emptyEm
    [row 0, col 0, ev 1, ev 1]).toOption.isSome := by
  decide +kernel

/-- C43 fails for lazy loading: the first word of the next frame is counted with the frame before. -/
theorem C43_fails_lazy : ((readLazy square emptyEm twoFrames).toOption.map fun r => r.count) =
    some 13 ∧ skipFrame twoFrames = 12 := by
  decide +kernel

/-- C44: lazy reading of a frame keeps the events of in-memory reading, for maps that are not higher
than wide. Missing: higher maps, the frames after the first, and the acceptance of frames. -/
theorem lazy_events (p : Par) (hwh : p.height ≤ p.width) : ∀ (ws : List Nat) (s : Lazy)
    (ox oy : Option Int) (s' : Lazy), lazyLoop p s ws = .ok s' → s.x = ox.map (clip p.width) →
    s.y = oy.map (clip p.width) →
    validCube p s'.data = validCube p s.data ++
      eventsOf p (ox.getD 0) (oy.getD 0) (ws.take (flen s.prevY ws))
  | [], s, ox, oy, s', h, _, _ => by
    cases h
    simp [eventsOf]
  | w :: ws, s, ox, oy, s', h, hx, hy => by
    unfold lazyLoop at h
    dsimp only at h
    by_cases h8 : w / 4096 = 8
    · rw [if_pos h8] at h
      have h9 : ¬ w / 4096 = 9 := by omega
      rw [flen_other h9, List.take_succ_cons, eventsOf, if_pos h8]
      have ih := lazy_events p hwh ws _ (some ((w % 4096 / p.wnorm : Nat) + p.dx)) oy s' h rfl hy; exact ih
    · rw [if_neg h8] at h
      by_cases h9 : w / 4096 = 9
      · rw [if_pos h9] at h
        by_cases hb : w % 4096 < s.prevY
        · rw [if_pos hb] at h
          cases h
          rw [flen_stop h9 hb]
          simp [eventsOf]
        · rw [if_neg hb] at h
          rw [flen_row h9 hb, List.take_succ_cons, eventsOf, if_neg h8, if_pos h9]
          have ih := lazy_events p hwh ws _ ox (some ((w % 4096 / p.hnorm : Nat) + p.dy)) s' h hx rfl; exact ih
      · rw [if_neg h9] at h
        rw [flen_other h9, List.take_succ_cons, eventsOf, if_neg h8, if_neg h9]
        by_cases h10 : w / 4096 = 10
        · rw [if_pos h10] at h
          have h11 : ¬ w / 4096 = 11 := by omega
          rw [if_neg h11]
          split at h
          · cases h
          · split at h
            · split at h
              · cases h
              · split at h
                · split at h
                  · cases h
                  · have ih := lazy_events p hwh ws _ ox oy s' h hx hy; exact ih
                · have ih := lazy_events p hwh ws _ ox oy s' h hx hy; exact ih
            · have ih := lazy_events p hwh ws _ ox oy s' h hx hy; exact ih
        · rw [if_neg h10] at h
          by_cases h11 : w / 4096 = 11
          · rw [if_pos h11] at h
            rw [if_pos h11]
            simp only
            by_cases hz : 0 ≤ ((w % 4096 / p.rebin : Nat) : Int) + p.dz ∧
                ((w % 4096 / p.rebin : Nat) : Int) + p.dz < p.channels
            · rw [if_pos hz] at h
              cases ox with
              | none => rw [hx] at h; cases h
              | some x =>
                cases oy with
                | none => rw [hx, hy] at h; cases h
                | some y =>
                  simp only [hx, hy, Option.map_some] at h
                  have ih := lazy_events p hwh ws _ (some x) (some y) s' h rfl rfl
                  rw [ih]
                  simp only [Option.getD_some]
                  by_cases hin : (0 ≤ x ∧ x < p.width) ∧ (0 ≤ y ∧ y < p.height)
                  · have ex : clip p.width x = x := clip_eq (clip_nonneg.2 hin.1)
                    have ey : clip p.width y = y := clip_eq (clip_nonneg.2 (by omega))
                    rw [ex, ey, if_pos ⟨hin.1, hin.2, hz⟩]
                    simp only [validCube, List.filter_append]
                    rw [List.filter_cons_of_pos (by simp only [decide_eq_true_eq]; omega)]
                    simp
                  · rw [if_neg (fun e => hin ⟨e.1, e.2.1⟩)]
                    simp only [validCube, List.filter_append]
                    rw [List.filter_cons_of_neg (a := (clip p.width y, clip p.width x, _)) (by
                      simp only [decide_eq_true_eq]
                      rintro ⟨a1, a2, a3, a4, -⟩
                      have e1 := clip_eq a1
                      have e2 := clip_eq a3
                      rw [e1] at a1 a2
                      rw [e2] at a3 a4
                      exact hin ⟨⟨a3, a4⟩, ⟨a1, a2⟩⟩)]
                    simp
            · rw [if_neg hz] at h
              rw [if_neg (fun e => hz e.2.2)]
              have ih := lazy_events p hwh ws _ ox oy s' h hx hy; exact ih
          · rw [if_neg h11] at h
            rw [if_neg h11]
            have ih := lazy_events p hwh ws _ ox oy s' h hx hy; exact ih

/-- C44: for maps that are not higher than wide, the first frame read lazily has the counts of the
frame read in memory. -/
theorem C44_frame_partial (p : Par) (ws : List Nat) (r : Read) (l : ReadLazy) (hp : Sane p)
    (hwh : p.height ≤ p.width) (hd : readDense p true emptyMap emptyEm ws = .ok r)
    (hl : readLazy p emptyEm ws = .ok l) (y x z : Int) :
    (validCube p l.data).count (y, x, z) = r.map y x z := by
  have h1 := (C45_exact p emptyMap emptyEm ws r hp (fun _ _ _ => hp.2.2.2) hd y x z).1
  rw [h1]
  unfold readLazy at hl
  cases hs : lazyLoop p ⟨none, none, 0, 0, 0, false, [], emptyEm⟩ ws with
  | error e => rw [hs] at hl; cases hl
  | ok s =>
    rw [hs] at hl
    obtain rfl := Except.ok.inj hl
    have := lazy_events p hwh ws _ none none s hs rfl rfl
    simp only at this ⊢
    rw [this]
    simp only [validCube, List.filter_nil, List.nil_append, emptyMap, Nat.zero_add]
    rfl

/-- Both readers read the first frame of `twoFrames`. -/
example : (readDense square true emptyMap emptyEm twoFrames).toOption.isSome ∧
    (readLazy square emptyEm twoFrames).toOption.isSome := by
  decide +kernel

/-- A map of 2 columns and 4 rows. -/
def tall : Par := ⟨2, 4, 4096, 2048, 1024, 1, 0, 0, 0, 255, 2, 4, 65536⟩

/-- C44 fails for maps higher than wide: rows from the width on are lost. -/
theorem C44_fails_tall :
    ((readDense tall true emptyMap emptyEm [row 0, col 0, ev 7, row 3072, ev 7]).toOption.map
      fun r => (r.map 3 0 7, r.valid)) = some (1, true) ∧
    ((readLazy tall emptyEm [row 0, col 0, ev 7, row 3072, ev 7]).toOption.map
      fun r => ((validCube tall r.data).count (3, 0, 7), r.valid)) = some (0, true) := by
  decide +kernel

/-- C44 fails when rows are downsampled: a complete frame is not accepted lazily, because its last row
must be exactly the first of the last group. -/
theorem C44_fails_downsampled :
    ((readDense square true emptyMap emptyEm
      [row 0, col 0, row 1024, row 2048, row 3072, ev 7]).toOption.map fun r => r.valid) =
        some true ∧
    ((readLazy square emptyEm
      [row 0, col 0, row 1024, row 2048, row 3072, ev 7]).toOption.map fun r => r.valid) =
        some false := by
  decide +kernel

/-- C44 fails for the second frame: lazy loading starts it one word late, without its first row. -/
theorem C44_fails_second :
    ((readDense square true emptyMap emptyEm (twoFrames.drop 12)).toOption.map
      fun r => r.map 0 0 7) = some 1 ∧
    (readLazy square emptyEm (twoFrames.drop 13)).toOption.isNone := by
  decide +kernel

/-- C45 fails for the S(T)EM image of lazy loading: an incomplete frame that is rejected is added a
second time instead of being taken back. -/
theorem C45_fails_lazy_image :
    ((readLazy square emptyEm [row 0, col 0, img 5]).toOption.bind fun r =>
      (readLazy square r.em [row 0, col 0, img 5]).toOption.map fun r' =>
        (r.valid, r.em 0 0, r'.em 0 0)) = some (false, 5, 10) := by
  decide +kernel

/-- C55: for square maps every image word of a pixel of the map is stored: reading never leaves the
image, whose array has `width` rows and `height` columns. -/
theorem C55_square_partial (p : Par) (up : Bool) (m : Map) (e : Em) (ws : List Nat)
    (hw : 0 < p.width) (hsq : p.width = p.height) (hr : p.emRows = p.width)
    (hc : p.emCols = p.height) :
    readDense p up m e ws ≠ .error .indexError := by
  have noerr : ∀ (ws : List Nat) (s : Dense), s.x < p.width → s.y < p.height →
      denseLoop p up s ws ≠ .error .indexError := by
    intro ws
    induction ws with
    | nil => intro s _ _ h; cases h
    | cons w ws ih =>
      intro s hx hy h
      unfold denseLoop at h
      dsimp only at h
      split at h
      · refine ih _ ?_ ?_ h
        · simp only; split <;> omega
        · exact hy
      · split at h
        · split at h
          · cases h
          · refine ih _ ?_ ?_ h
            · exact hx
            · simp only; split <;> omega
        · split at h
          · split at h
            · omega
            · have q := fun hx' hy' => ih _ hx' hy' h; exact q hx hy
          · split at h
            · split at h
              · split at h
                · cases h
                · have q := fun hx' hy' => ih _ hx' hy' h; exact q hx hy
              · have q := fun hx' hy' => ih _ hx' hy' h; exact q hx hy
            · have q := fun hx' hy' => ih _ hx' hy' h; exact q hx hy
  intro h
  unfold readDense at h
  cases hd : denseLoop p up ⟨0, 0, none, -1, 0, false, m, e⟩ ws with
  | error er =>
    rw [hd] at h
    cases h
    exact noerr ws _ (by simp only; omega) (by simp only; omega) hd
  | ok s =>
    rw [hd] at h
    simp only at h
    split at h
    · split at h <;> cases h
    · cases h

/-- C55 fails for other maps: a map of 2 columns and 4 rows has an image array of 2 rows, and the image
word of its last row is outside. -/
theorem C55_fails_tall : (readDense tall true emptyMap emptyEm
    [row 0, col 0, img 5, row 3072, img 6]).toOption.isNone ∧
    (readDense tall true emptyMap emptyEm [row 0, col 0, img 5, row 3072]).toOption.isSome := by
  decide +kernel

end Verif.Props.Jeol
