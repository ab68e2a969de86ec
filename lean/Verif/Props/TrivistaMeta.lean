import Verif.Props.TrivistaInfo
/-!
C107: settings in TriVista files arrive in the metadata, each at its place.
-/
namespace Verif.Props.TrivistaMeta
open Verif.TrivistaMeta
open Verif.Props.JobinYvon (foldlM_ok)

/-! ### The hardware that was used -/

/-- There is exactly one such element. -/
def Only {α : Type} (P : α → Prop) (l : List α) (a : α) : Prop := a ∈ l ∧ P a ∧ ∀ b ∈ l, P b → b = a

/-- A wavelength that is the calibration within the tolerance of NumPy, and not zero. -/
def Matches (c w : ℚ) : Prop := |c - w| ≤ 1 / 100000000 + 1 / 100000 * |w| ∧ 1 / 100000000 < |w|

theorem isClose_iff {a b : ℚ} : isClose a b = true ↔ |a - b| ≤ 1 / 100000000 + 1 / 100000 * |b| := by
  unfold isClose
  simp

theorem isClose_zero {a : ℚ} : isClose a 0 = true ↔ |a| ≤ 1 / 100000000 := by
  rw [isClose_iff]
  simp

theorem fold_only {α β : Type} {f : β → α → β} {P : α → Prop} {g : α → β} {a : α}
    (h1 : ∀ s x, P x → f s x = g x) (h2 : ∀ s x, ¬ P x → f s x = s) : ∀ {l : List α} {s : β}, (∀ b ∈ l, P b → b = a) →
    s = g a ∨ (a ∈ l ∧ P a) → l.foldl f s = g a
  | [], s, _, h => by
    rcases h with h | h
    · exact h
    · simp at h
  | b :: l, s, hu, h => by
    rw [List.foldl_cons]
    apply fold_only h1 h2 (fun b hb => hu b (by simp [hb]))
    by_cases hp : P b
    · left
      rw [h1 s b hp, hu b (by simp) hp]
    · rw [h2 s b hp]
      rcases h with h | ⟨h, hpa⟩
      · exact .inl h
      · rcases List.mem_cons.1 h with rfl | h
        · exact absurd hpa hp
        · exact .inr ⟨h, hpa⟩

theorem laser_only {c : ℚ} {l : List Laser} {a : Laser} (h : Only (fun a => ∃ w, a.wavelength = some w ∧ Matches c w) l a) :
    filterLaser (some (.num c)) (.many l) = .ok (.one a) := by
  unfold filterLaser
  refine congrArg Except.ok ?_
  apply fold_only (P := fun a => ∃ w, a.wavelength = some w ∧ Matches c w) (g := Sel.one) _ _ h.2.2 (.inr ⟨h.1, h.2.1⟩)
  · rintro s x ⟨w, h1, h2, h3⟩
    unfold laserStep
    simp only [h1]
    rw [if_pos ⟨isClose_iff.2 h2, fun e => absurd (isClose_zero.1 e) (not_le.2 h3)⟩]
  · intro s x hn
    unfold laserStep
    cases hw : x.wavelength with
    | none => rfl
    | some w =>
      simp only []
      rw [if_neg]
      rintro ⟨h2, h3⟩
      refine hn ⟨w, hw, isClose_iff.1 h2, ?_⟩
      rw [← not_le]
      exact fun e => h3 (isClose_zero.2 e)

theorem detector_only {n : Text} {l : List Detector} {a : Detector} (h : Only (fun d => d.name = n) l a) :
    filterDetector (some (.str n)) (.many l) = .ok (.one a) := by
  unfold filterDetector
  cases l with
  | nil => exact absurd h.1 (by simp)
  | cons x xs =>
    refine congrArg Except.ok ?_
    apply fold_only (P := fun d => d.name = n) (g := Sel.one) _ _ h.2.2 (.inr ⟨h.1, h.2.1⟩)
    · rintro s x rfl
      simp
    · intro s x hn
      rw [if_neg]
      intro e
      injection e with e
      exact hn e.symm

/-- Exactly one objective of one microscope is enabled. -/
def OneEnabled (l : List Microscope) (m : Microscope) (o : Objective) : Prop :=
  (∀ m' ∈ l, ∃ os, m'.objectives = .many os) ∧ m ∈ l ∧ (∃ os, m.objectives = .many os ∧ o ∈ os ∧ o.enabled = true) ∧
  ∀ m' ∈ l, ∀ os, m'.objectives = .many os → ∀ o' ∈ os, o'.enabled = true → m' = m ∧ o' = o

theorem objective_only {l : List Microscope} {m : Microscope} {o : Objective} (h : OneEnabled l m o) :
    filterObjectives (.many l) = .ok (.one { m with objectives := .one o }) := by
  obtain ⟨h1, h2, ⟨os, h3, h4, h5⟩, h6⟩ := h
  unfold filterObjectives
  let g : Sel Microscope → Microscope → Sel Microscope := fun s m => match m.objectives with
    | .one _ => s
    | .many os => os.foldl (objectiveStep m) s
  have hg : ∀ m' ∈ l, ∀ s, microscopeStep s m' = .ok (g s m') := by
    intro m' hm s
    obtain ⟨os, e⟩ := h1 m' hm
    show _ = Except.ok (match m'.objectives with | .one _ => s | .many os => os.foldl (objectiveStep m') s)
    unfold microscopeStep
    rw [e]
  simp only []
  rw [foldlM_ok hg]
  refine congrArg Except.ok ?_
  have step : ∀ m' ∈ l, ∀ s, (s = .one { m with objectives := .one o } ∨ m' = m) → g s m' = .one { m with objectives := .one o } := by
    intro m' hm s hs
    obtain ⟨os', e⟩ := h1 m' hm
    show (match m'.objectives with | .one _ => s | .many os => os.foldl (objectiveStep m') s) = _
    rw [e]
    show os'.foldl (objectiveStep m') s = _
    by_cases hmm : m' = m
    · subst hmm
      rw [h3] at e
      injection e with e
      subst e
      apply fold_only (f := objectiveStep m') (P := fun o : Objective => o.enabled = true) (g := fun o => Sel.one { m' with objectives := .one o }) (a := o)
      · intro s x hx
        unfold objectiveStep
        rw [if_pos hx]
      · intro s x hx
        unfold objectiveStep
        rw [if_neg hx]
      · intro b hb hp
        exact (h6 m' hm os h3 b hb hp).2
      · exact .inr ⟨h4, h5⟩
    · rcases hs with hs | hs
      · have : ∀ (l : List Objective), (∀ x ∈ l, x.enabled = false) → ∀ s, l.foldl (objectiveStep m') s = s := by
          intro l
          induction l with
          | nil => exact fun _ _ => rfl
          | cons x xs ih =>
            intro hx s
            rw [List.foldl_cons]
            have : objectiveStep m' s x = s := by
              unfold objectiveStep
              rw [hx x (by simp)]
              rfl
            rw [this]
            exact ih (fun y hy => hx y (by simp [hy])) s
        rw [this os', hs]
        intro x hx
        cases he : x.enabled with
        | false => rfl
        | true => exact absurd (h6 m' hm os' e x hx he).1 hmm
      · exact absurd hs hmm
  have : ∀ (l' : List Microscope) (s : Sel Microscope), (∀ m' ∈ l', m' ∈ l) → (s = .one { m with objectives := .one o } ∨ m ∈ l') →
      l'.foldl g s = .one { m with objectives := .one o } := by
    intro l'
    induction l' with
    | nil =>
      intro s _ hs
      rcases hs with hs | hs
      · exact hs
      · simp at hs
    | cons x xs ih =>
      intro s hsub hs
      rw [List.foldl_cons]
      apply ih _ (fun m' hm => hsub m' (by simp [hm]))
      rcases hs with hs | hs
      · exact .inl (step x (hsub x (by simp)) s (.inl hs))
      · rcases List.mem_cons.1 hs with e | e
        · exact .inl (step x (hsub x (by simp)) s (.inr e.symm))
        · exact .inr e
  exact this l _ (fun _ h => h) (.inr h2)

theorem foldlM_reach {σ γ : Type} {f : σ → γ → Py σ} {Q : σ → Prop} {a : γ} : ∀ {l : List γ} {s s' : σ},
    (∀ s s', f s a = .ok s' → Q s') → (∀ b ∈ l, ∀ s s', Q s → f s b = .ok s' → Q s') → Q s ∨ a ∈ l → l.foldlM f s = .ok s' → Q s'
  | [], s, s', _, _, h, e => by
    cases e
    rcases h with h | h
    · exact h
    · simp at h
  | b :: l, s, s', h1, h2, h, e => by
    rw [List.foldlM_cons] at e
    cases hb : f s b with
    | error x => rw [hb] at e; cases e
    | ok t =>
      rw [hb] at e
      apply foldlM_reach h1 (fun c hc => h2 c (by simp [hc])) _ e
      rcases h with h | h
      · exact .inl (h2 b (by simp) s t h hb)
      · rcases List.mem_cons.1 h with rfl | h
        · exact .inl (h1 s t hb)
        · exact .inr h

/-- The entry of a spectrometer says which serial number and which groove density it has. -/
structure Used (us : List (Text × Info)) (n : Text) (l : List (Text × Val)) (serial groove : Val) : Prop where
  mem : (n, Info.items l) ∈ us
  serial_eq : getKw "Serialnumber".toList l = some serial
  groove_eq : getKw "Groove_Density".toList l = some groove
  names : (us.map Prod.fst).Nodup
  serials : ∀ n' l', (n', Info.items l') ∈ us → getKw "Serialnumber".toList l' = some serial → n' = n
  alone : n = "Spectrometer".toList → us.length = 1

theorem mapM_serial {us : List (Text × Info)} {used : List (Text × Val × List (Text × Val))} (h : us.mapM serialOf = .ok used) :
    used.map Prod.fst = us.map Prod.fst ∧ (∀ n l v, (n, Info.items l) ∈ us → getKw "Serialnumber".toList l = some v → (n, v, l) ∈ used) ∧
    (∀ u ∈ used, (u.1, Info.items u.2.2) ∈ us ∧ getKw "Serialnumber".toList u.2.2 = some u.2.1) := by
  induction us generalizing used with
  | nil =>
    cases h
    simp
  | cons e us ih =>
    rw [List.mapM_cons] at h
    simp only [bind, Except.bind] at h
    cases hs : serialOf e with
    | error x => rw [hs] at h; cases h
    | ok w =>
      rw [hs] at h
      simp only [] at h
      cases hm : us.mapM serialOf with
      | error x => rw [hm] at h; cases h
      | ok used' =>
        rw [hm] at h
        cases h
        obtain ⟨i1, i2, i3⟩ := ih hm
        have hw : w.1 = e.1 ∧ e = (w.1, Info.items w.2.2) ∧ getKw "Serialnumber".toList w.2.2 = some w.2.1 := by
          unfold serialOf at hs
          cases he : e.2 with
          | sub l => rw [he] at hs; cases hs
          | items l =>
            rw [he] at hs
            simp only [] at hs
            cases hv : getKw "Serialnumber".toList l with
            | none => rw [hv] at hs; cases hs
            | some v =>
              rw [hv] at hs
              cases hs
              exact ⟨rfl, by rw [← he], hv⟩
        refine ⟨by simp [i1, hw.1], ?_, ?_⟩
        · intro n l v hmem hv
          rcases List.mem_cons.1 hmem with e1 | e1
          · rw [hw.2.1] at e1
            injection e1 with e1 e2
            injection e2 with e2
            have := hw.2.2
            rw [← e2, hv] at this
            injection this with this
            exact List.mem_cons.2 (.inl (by rw [e1, this, e2]))
          · exact List.mem_cons.2 (.inr (i2 n l v e1 hv))
        · intro u hu
          rcases List.mem_cons.1 hu with rfl | hu
          · exact ⟨by rw [← hw.2.1]; simp, hw.2.2⟩
          · exact ⟨List.mem_cons.2 (.inr (i3 u hu).1), (i3 u hu).2⟩

theorem find_used {α : Type} {p : α → Bool} {a : α} : ∀ {l : List α}, a ∈ l → p a = true → (∀ b ∈ l, p b = true → b = a) → l.find? p = some a
  | [], h, _, _ => by simp at h
  | b :: l, h, hp, hu => by
    rw [List.find?_cons]
    cases hb : p b with
    | true => simp [hu b (by simp) hb]
    | false =>
      rcases List.mem_cons.1 h with rfl | h
      · rw [hp] at hb; cases hb
      · exact find_used h hp fun c hc => hu c (by simp [hc])

theorem getKw_delKw {α : Type} (k k' : Text) : ∀ d : List (Text × α), getKw k' (delKw k d) = if k' = k then none else getKw k' d
  | [] => by simp [delKw, getKw]
  | (a, v) :: d => by
    have ih := getKw_delKw k k' d
    unfold delKw at ih ⊢
    by_cases h : a = k
    · rw [List.filter_cons_of_neg (by simp [h]), ih]
      by_cases h' : k' = k
      · simp [h']
      · rw [if_neg h', if_neg h']
        simp only [getKw]
        rw [if_neg]
        rw [h]
        exact fun e => h' e.symm
    · rw [List.filter_cons_of_pos (by simp [h])]
      simp only [getKw]
      rw [ih]
      by_cases h' : a = k'
      · subst h'
        simp [h]
      · rw [if_neg h', if_neg h']

theorem spectrometer_only {info : List (Text × Info)} {us : List (Text × Info)} {hs : List Spectrometer} {d : List (Text × Spectrometer)}
    {n : Text} {l : List (Text × Val)} {serial groove : Val} {s : Spectrometer} {gs : List Grating} {g : Grating}
    (h : filterSpectrometers info (.many hs) = .ok d) (hi : getKw "Spectrometers".toList info = some (.sub us))
    (hu : Used us n l serial groove) (ho : Only (fun s => s.serial = serial) hs s) (hg : s.gratings = .many gs)
    (hgo : Only (fun g => g.groove = groove) gs g) : getKw n d = some { s with gratings := .one g } := by
  unfold filterSpectrometers serials at h
  rw [hi] at h
  simp only [] at h
  cases hm : us.mapM serialOf with
  | error e => rw [hm] at h; cases h
  | ok used =>
    rw [hm] at h
    simp only [] at h
    obtain ⟨m1, m2, m3⟩ := mapM_serial hm
    have hmem := m2 n l serial hu.mem hu.serial_eq
    have hnd : (used.map Prod.fst).Nodup := by rw [m1]; exact hu.names
    have huniq : ∀ u ∈ used, u.1 = n → u = (n, serial, l) := by
      intro u hmu e
      have h1 : (u.1, u.2) ∈ used := hmu
      have := (getKw_mem_iff hnd).2 h1
      have h2 := (getKw_mem_iff hnd).2 hmem
      rw [e, h2] at this
      injection this with this
      exact Prod.ext e this.symm
    have hfind : used.find? (fun u => u.2.1 = serial) = some (n, serial, l) := by
      apply find_used hmem (by simp)
      intro u hmu hp
      have hp : u.2.1 = serial := of_decide_eq_true hp
      have := m3 u hmu
      rw [hp] at this
      exact huniq u hmu (hu.serials _ _ this.1 this.2)
    have hgr : gratingOf (getKw "Groove_Density".toList l) s = .ok { s with gratings := .one g } := by
      unfold gratingOf
      rw [hg, hu.groove_eq]
      cases gs with
      | nil => exact absurd hgo.1 (by simp)
      | cons x xs =>
        simp only []
        congr 2
        exact fold_only (P := fun g : Grating => g.groove = groove) (g := Sel.one)
          (fun s x hx => by rw [if_pos hx]) (fun s x hx => by rw [if_neg hx]) hgo.2.2 (.inr ⟨hgo.1, hgo.2.1⟩)
    cases hf : hs.foldlM (spectrometerStep used) ([], none) with
    | error e => rw [hf] at h; cases h
    | ok st =>
      rw [hf] at h
      have h1 : ∀ st st', spectrometerStep used st s = .ok st' → getKw n st'.1 = some { s with gratings := .one g } ∧ ∃ n', st'.2 = some n' ∧ n' ∈ used.map Prod.fst := by
        intro st st' e
        unfold spectrometerStep at e
        rw [ho.2.1, hfind] at e
        simp only [hgr] at e
        cases e
        exact ⟨by rw [getKw_setKw, if_pos rfl], n, rfl, List.mem_map.2 ⟨_, hmem, rfl⟩⟩
      have h2 : ∀ b ∈ hs, ∀ st st', (getKw n st.1 = some { s with gratings := .one g } ∧ ∃ n', st.2 = some n' ∧ n' ∈ used.map Prod.fst) →
          spectrometerStep used st b = .ok st' → (getKw n st'.1 = some { s with gratings := .one g } ∧ ∃ n', st'.2 = some n' ∧ n' ∈ used.map Prod.fst) := by
        intro b hb st st' hq e
        by_cases hbs : b = s
        · subst hbs
          exact h1 st st' e
        · unfold spectrometerStep at e
          cases hfb : used.find? (fun u => u.2.1 = b.serial) with
          | none => rw [hfb] at e; cases e; exact hq
          | some u =>
            rw [hfb] at e
            simp only [] at e
            have hmu := List.mem_of_find?_eq_some hfb
            have hsu : u.2.1 = b.serial := by
              have := List.find?_some hfb
              exact of_decide_eq_true this
            cases hgb : gratingOf (getKw "Groove_Density".toList u.2.2) b with
            | error x => rw [hgb] at e; cases e
            | ok b' =>
              rw [hgb] at e
              cases e
              refine ⟨?_, u.1, rfl, List.mem_map.2 ⟨u, hmu, rfl⟩⟩
              rw [getKw_setKw, if_neg]
              · exact hq.1
              · intro e
                have := huniq u hmu e.symm
                rw [this] at hsu
                exact hbs (ho.2.2 b hb hsu.symm)
      have := foldlM_reach (Q := fun st => getKw n st.1 = some { s with gratings := .one g } ∧ ∃ n', st.2 = some n' ∧ n' ∈ used.map Prod.fst)
        h1 h2 (.inr ho.1) hf
      obtain ⟨q1, n', q2, q3⟩ := this
      obtain ⟨d', o⟩ := st
      simp only [] at q1 q2
      subst q2
      simp only [] at h
      cases h
      split_ifs with c
      · exact q1
      · rw [getKw_delKw, if_neg]
        · exact q1
        · intro e
          have ha := hu.alone e
          rw [m1] at q3
          obtain ⟨x, hx⟩ := List.length_eq_one_iff.1 ha
          have hn := hu.mem
          rw [hx] at q3 hn
          simp only [List.map_cons, List.map_nil, List.mem_singleton] at q3 hn
          rw [← hn] at q3
          exact c (q3.trans e)

end Verif.Props.TrivistaMeta
