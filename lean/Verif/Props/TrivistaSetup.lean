import Verif.Props.TrivistaMeta
/-!
C107: settings in TriVista files arrive in the metadata, each at its place.
-/
namespace Verif.Props.TrivistaMeta
open Verif.TrivistaMeta

/-- The part of a text in front of the first separator, or all of it. -/
def First (c : Char) (t a : Text) : Prop := (c ∉ t ∧ a = t) ∨ ∃ b, t = a ++ c :: b ∧ c ∉ a

/-- Values that count as true. -/
def Yes (v : Val) : Prop := v = .bool true ∨ (∃ q, v = .num q ∧ q ≠ 0) ∨ ∃ t, v = .str t ∧ t ≠ []

/-- A number, or a text that is one. -/
def Number (toFloat : Text → Py ℚ) (v : Val) (q : ℚ) : Prop :=
  v = .num q ∨ (∃ t, v = .str t ∧ toFloat t = .ok q) ∨ (v = .bool true ∧ q = 1) ∨ (v = .bool false ∧ q = 0)

/-- What the entries for detector and experiment say. -/
inductive DetectorSays (toFloat : Text → Py ℚ) (d : List (Text × Val)) (ex : Option (List (Text × Val))) (windows : Nat) : Text → Val → Prop
  | temperature {v} : getKw "Detector_Temperature".toList d = some v → v ≠ .none → DetectorSays toFloat d ex windows "temperature".toList v
  | frames {v} : getKw "No_of_Accumulations".toList d = some v → v ≠ .none → DetectorSays toFloat d ex windows "frames".toList v
  | average {v} : getKw "Calc_Average".toList d = some v → v ≠ .none → DetectorSays toFloat d ex windows "processing.calc_average".toList v
  | exposure {q} : getKw "Exposure_Time_(ms)".toList d = some (.num q) → DetectorSays toFloat d ex windows "exposure_per_frame".toList (.num (q / 1000))
  | averaged {q v} : getKw "Exposure_Time_(ms)".toList d = some (.num q) → getKw "Calc_Average".toList d = some v → Yes v →
      DetectorSays toFloat d ex windows "integration_time".toList (.num (q / 1000))
  | summed {q n} : getKw "Exposure_Time_(ms)".toList d = some (.num q) → (∀ v, getKw "Calc_Average".toList d = some v → ¬ Yes v) →
      getKw "No_of_Accumulations".toList d = some (.num n) → DetectorSays toFloat d ex windows "integration_time".toList (.num (q / 1000 * n))
  | single {e} : ex = some e → (∀ v, getKw "Overlap (%)".toList e ≠ some v) → DetectorSays toFloat d ex windows "glued_spectrum".toList (.bool false)
  | glued {e v} : ex = some e → getKw "Overlap (%)".toList e = some v → DetectorSays toFloat d ex windows "glued_spectrum".toList (.bool true)
  | overlap {e v q} : ex = some e → getKw "Overlap (%)".toList e = some v → Number toFloat v q → DetectorSays toFloat d ex windows "glued_spectrum_overlap".toList (.num q)
  | windows {e v} : ex = some e → getKw "Overlap (%)".toList e = some v → DetectorSays toFloat d ex windows "glued_spectrum_windows".toList (.num windows)

/-- What is known about the laser and the objective. -/
inductive LaserSays (toFloat : Text → Py ℚ) (cal : List (Text × Val)) (m : Sel Microscope) : Text → Val → Prop
  | objective {n o} : m = .one ⟨n, .one o⟩ → o.magnification ≠ .none → LaserSays toFloat cal m "objective_magnification".toList o.magnification
  | wavelength {v q} : getKw "Laser_Wavelength".toList cal = some v → Number toFloat v q → 1 / 100000000 < |q| →
      LaserSays toFloat cal m "wavelength".toList (.num q)

/-- What is known about a spectrometer: its entry, and the hardware. -/
inductive SpecSays (toFloat : Text → Py ℚ) (cal l : List (Text × Val)) (s : Option Spectrometer) : Text → Val → Prop
  | center {v} : getKw "Center_Wavelength".toList cal = some v → v ≠ .none → SpecSays toFloat cal l s "central_wavelength".toList v
  | model {v} : getKw "Model".toList l = some v → v ≠ .none → SpecSays toFloat cal l s "model".toList v
  | groove {t a q} : getKw "Groove_Density".toList l = some (.str t) → First ' ' t a → toFloat a = .ok q → SpecSays toFloat cal l s "Grating.groove_density".toList (.num q)
  | blazeNumber {serial g} : s = some ⟨serial, .one g⟩ → g.blaze ≠ .none → (∀ t, g.blaze ≠ .str t) → SpecSays toFloat cal l s "Grating.blazing_wavelength".toList g.blaze
  | blazeNm {serial g t a q} : s = some ⟨serial, .one g⟩ → g.blaze = .str (t ++ "NM".toList) → First 'N' (t ++ "NM".toList) a → toFloat a = .ok q →
      SpecSays toFloat cal l s "Grating.blazing_wavelength".toList (.num q)
  | blazeText {serial g t} : s = some ⟨serial, .one g⟩ → g.blaze = .str t → (∀ a, t ≠ a ++ "NM".toList) → SpecSays toFloat cal l s "Grating.blazing_wavelength".toList (.str t)
  | entrance {a b c e} : getKw "Slit_Entrance-Front".toList l = some (.num a) → getKw "Slit_Entrance-Side".toList l = some (.num b) →
      getKw "Slit_Exit-Front".toList l = some (.num c) → getKw "Slit_Exit-Side".toList l = some (.num e) →
      SpecSays toFloat cal l s "entrance_slit_width".toList (.num (max a b / 1000))
  | exit {a b c e} : getKw "Slit_Entrance-Front".toList l = some (.num a) → getKw "Slit_Entrance-Side".toList l = some (.num b) →
      getKw "Slit_Exit-Front".toList l = some (.num c) → getKw "Slit_Exit-Side".toList l = some (.num e) →
      SpecSays toFloat cal l s "exit_slit_width".toList (.num (max c e / 1000))

/-- What the file says in general. -/
inductive GeneralSays (f : File) : Text → Val → Prop
  | title {a} : First '.' f.fileName a → GeneralSays f "title".toList (.str a)
  | file : GeneralSays f "original_filename".toList (.str f.fileName)
  | date {m d y t} : f.recordTime = some (m ++ '/' :: d ++ '/' :: y ++ ' ' :: t) → (∀ c ∈ m ++ d ++ y, c ≠ '/' ∧ c ≠ ' ') →
      GeneralSays f "date".toList (.str (y ++ '-' :: m ++ '-' :: d))
  | time {d t a} : f.recordTime = some (d ++ ' ' :: t) → ' ' ∉ d → First '.' t a → GeneralSays f "time".toList (.str a)

theorem exists_first {c : Char} : ∀ {t : Text}, c ∈ t → ∃ p q, t = p ++ c :: q ∧ c ∉ p
  | x :: t, h => by
    by_cases hx : x = c
    · exact ⟨[], t, by rw [hx]; rfl, by simp⟩
    · obtain ⟨p, q, rfl, hp⟩ := exists_first (t := t) ((List.mem_cons.1 h).resolve_left fun e => hx e.symm)
      exact ⟨x :: p, q, rfl, by
        rw [List.mem_cons]
        rintro (e | e)
        · exact hx e.symm
        · exact hp e⟩

theorem first_iff {c : Char} {t a : Text} : First c t a ↔ (splitChar c t).headD [] = a := by
  by_cases h : c ∈ t
  · obtain ⟨p, q, rfl, hp⟩ := exists_first h
    rw [splitChar_append hp]
    constructor
    · rintro (⟨h1, _⟩ | ⟨b, h1, h2⟩)
      · exact absurd h h1
      · have : splitChar c (p ++ c :: q) = splitChar c (a ++ c :: b) := by rw [h1]
        rw [splitChar_append hp, splitChar_append h2] at this
        injection this
    · intro e
      exact .inr ⟨q, by rw [← e]; rfl, by rw [← e]; exact hp⟩
  · rw [splitChar_none h]
    constructor
    · rintro (⟨_, h1⟩ | ⟨b, h1, h2⟩)
      · exact h1.symm
      · rw [h1] at h
        simp at h
    · intro e
      exact .inl ⟨h, e.symm⟩

theorem truth_iff {v : Val} : truth v = true ↔ Yes v := by
  unfold truth Yes
  cases v <;> simp

theorem number_iff {toFloat : Text → Py ℚ} {v : Val} {q : ℚ} : floatVal toFloat v = .ok q ↔ Number toFloat v q := by
  unfold floatVal Number
  cases v with
  | none => simp
  | str t => simp
  | num x => simp
  | bool b => cases b <;> simp [eq_comm]

theorem mem_removeNone {d : List (Text × Val)} {k : Text} {v : Val} : (k, v) ∈ removeNone d ↔ (k, v) ∈ d ∧ v ≠ .none := by
  unfold removeNone
  rw [List.mem_filter]
  simp

theorem getVal_iff {k : String} {d : List (Text × Val)} {v : Val} (hv : v ≠ .none) : getVal k d = v ↔ getKw k.toList d = some v := by
  unfold getVal
  cases getKw k.toList d with
  | none => simp [hv.symm]
  | some w => simp

theorem detector_says {toFloat : Text → Py ℚ} {windows : Nat} {info : List (Text × Info)} {r d : List (Text × Val)} {ex : Option (List (Text × Val))}
    (h : detector toFloat windows info = .ok r) (hd : items "Detector" info = some d) (hx : items "Experiment" info = ex) (k : Text) (v : Val) :
    (k, v) ∈ removeNone r ↔ DetectorSays toFloat d ex windows k v := by
  unfold detector at h
  rw [hd, hx] at h
  simp only [Option.getD_some] at h
  cases hg : glued toFloat windows ex with
  | error e => rw [hg] at h; cases h
  | ok g =>
    rw [hg] at h
    cases h
    rw [mem_removeNone, List.mem_append, List.mem_append]
    have hgs : ((k, v) ∈ g ∧ v ≠ .none) ↔ ((∃ e, ex = some e ∧ (∀ v, getKw "Overlap (%)".toList e ≠ some v) ∧ k = "glued_spectrum".toList ∧ v = .bool false) ∨
        (∃ e w q, ex = some e ∧ getKw "Overlap (%)".toList e = some w ∧ floatVal toFloat w = .ok q ∧
          ((k = "glued_spectrum".toList ∧ v = .bool true) ∨ (k = "glued_spectrum_overlap".toList ∧ v = .num q) ∨ (k = "glued_spectrum_windows".toList ∧ v = .num windows)))) := by
      unfold glued at hg
      cases ex with
      | none => cases hg; simp
      | some e =>
        simp only [] at hg
        cases ho : getKw "Overlap (%)".toList e with
        | none =>
          rw [ho] at hg
          cases hg
          simp only [List.mem_singleton, Prod.mk.injEq]
          constructor
          · rintro ⟨⟨h1, h2⟩, _⟩
            exact .inl ⟨e, rfl, by rw [ho]; simp, h1, h2⟩
          · rintro (⟨e', _, _, h1, h2⟩ | ⟨e', w, q, h0, h1, _⟩)
            · exact ⟨⟨h1, h2⟩, by rw [h2]; simp⟩
            · injection h0 with h0
              subst h0
              rw [ho] at h1
              cases h1
        | some w =>
          rw [ho] at hg
          simp only [] at hg
          cases hq : floatVal toFloat w with
          | error x => rw [hq] at hg; cases hg
          | ok q =>
            rw [hq] at hg
            cases hg
            simp only [List.mem_cons, Prod.mk.injEq, List.not_mem_nil, or_false]
            constructor
            · rintro ⟨h1, _⟩
              exact .inr ⟨e, w, q, rfl, ho, hq, h1⟩
            · rintro (⟨e', h0, h1, _⟩ | ⟨e', w', q', h0, h1, h2, h3⟩)
              · injection h0 with h0
                subst h0
                exact absurd ho (h1 w)
              · injection h0 with h0
                subst h0
                rw [ho] at h1
                injection h1 with h1
                subst h1
                rw [hq] at h2
                injection h2 with h2
                subst h2
                refine ⟨h3, ?_⟩
                rcases h3 with ⟨_, h3⟩ | ⟨_, h3⟩ | ⟨_, h3⟩ <;> rw [h3] <;> simp
    have hth : ∀ {w : Val}, w ≠ .none → (thousandth (getVal "Exposure_Time_(ms)" d) = w ↔ ∃ q, getKw "Exposure_Time_(ms)".toList d = some (.num q) ∧ w = .num (q / 1000)) := by
      intro w hw
      constructor
      · intro e
        unfold thousandth at e
        cases hv : getVal "Exposure_Time_(ms)" d with
        | num q =>
          rw [hv] at e
          exact ⟨q, (getVal_iff (by simp)).1 hv, e.symm⟩
        | none => rw [hv] at e; exact absurd e.symm hw
        | str t => rw [hv] at e; exact absurd e.symm hw
        | bool b => rw [hv] at e; exact absurd e.symm hw
      · rintro ⟨q, h1, h2⟩
        rw [(getVal_iff (by simp)).2 h1, h2]
        rfl
    have hint : ((k, v) ∈ integration (getVal "Calc_Average" d) (thousandth (getVal "Exposure_Time_(ms)" d)) (getVal "No_of_Accumulations" d) ∧ v ≠ .none) ↔
        k = "integration_time".toList ∧ ((∃ q w, getKw "Exposure_Time_(ms)".toList d = some (.num q) ∧ getKw "Calc_Average".toList d = some w ∧ Yes w ∧ v = .num (q / 1000)) ∨
          (∃ q n, getKw "Exposure_Time_(ms)".toList d = some (.num q) ∧ (∀ v, getKw "Calc_Average".toList d = some v → ¬ Yes v) ∧
            getKw "No_of_Accumulations".toList d = some (.num n) ∧ v = .num (q / 1000 * n))) := by
      unfold integration
      by_cases ht : truth (getVal "Calc_Average" d) = true
      · rw [if_pos ht]
        have hy := truth_iff.1 ht
        have hne : getVal "Calc_Average" d ≠ .none := by
          intro e
          rw [e] at ht
          cases ht
        have hget := (getVal_iff hne).1 rfl
        simp only [List.mem_singleton, Prod.mk.injEq]
        constructor
        · rintro ⟨⟨h1, h2⟩, h3⟩
          obtain ⟨q, h4, h5⟩ := (hth h3).1 h2.symm
          exact ⟨h1, .inl ⟨q, _, h4, hget, hy, h5⟩⟩
        · rintro ⟨h1, ⟨q, w, h2, h3, h4, h5⟩ | ⟨q, n, h2, h3, h4, h5⟩⟩
          · have hv : v ≠ .none := by rw [h5]; simp
            exact ⟨⟨h1, ((hth hv).2 ⟨q, h2, h5⟩).symm⟩, hv⟩
          · exact absurd hy (h3 _ hget)
      · rw [if_neg ht]
        have hny : ∀ v, getKw "Calc_Average".toList d = some v → ¬ Yes v := by
          intro w hw hy
          apply ht
          have : getVal "Calc_Average" d = w := by unfold getVal; rw [hw]; rfl
          rw [this]
          exact truth_iff.2 hy
        constructor
        · rintro ⟨h1, h2⟩
          split at h1
          · rename_i e n he hn
            simp only [List.mem_singleton, Prod.mk.injEq] at h1
            obtain ⟨q, h4, h5⟩ := (hth (by simp)).1 he
            injection h5 with h5
            exact ⟨h1.1, .inr ⟨q, n, h4, hny, (getVal_iff (by simp)).1 hn, by rw [h1.2, h5]⟩⟩
          · cases h1
        · rintro ⟨h1, ⟨q, w, h2, h3, h4, h5⟩ | ⟨q, n, h2, h3, h4, h5⟩⟩
          · exact absurd h4 (hny w h3)
          · rw [(hth (w := .num (q / 1000)) (by simp)).2 ⟨q, h2, rfl⟩, (getVal_iff (by simp)).2 h4]
            simp [h1, h5]
    constructor
    · rintro ⟨(h1 | h1) | h1, h2⟩
      · rcases hgs.1 ⟨h1, h2⟩ with ⟨e, he, ho, rfl, rfl⟩ | ⟨e, w, q, he, ho, hq, ⟨rfl, rfl⟩ | ⟨rfl, rfl⟩ | ⟨rfl, rfl⟩⟩
        · exact .single he ho
        · exact .glued he ho
        · exact .overlap he ho (number_iff.1 hq)
        · exact .windows he ho
      · simp only [List.mem_cons, Prod.mk.injEq, List.not_mem_nil, or_false] at h1
        rcases h1 with ⟨rfl, e⟩ | ⟨rfl, e⟩ | ⟨rfl, e⟩ | ⟨rfl, e⟩
        · exact .temperature ((getVal_iff h2).1 e.symm) h2
        · exact .frames ((getVal_iff h2).1 e.symm) h2
        · exact .average ((getVal_iff h2).1 e.symm) h2
        · obtain ⟨q, h4, h5⟩ := (hth h2).1 e.symm
          subst h5
          exact .exposure h4
      · obtain ⟨rfl, ⟨q, w, h3, h4, h5, rfl⟩ | ⟨q, n, h3, h4, h5, rfl⟩⟩ := hint.1 ⟨h1, h2⟩
        · exact .averaged h3 h4 h5
        · exact .summed h3 h4 h5
    · intro hs
      cases hs with
      | temperature h1 h2 =>
        refine ⟨.inl (.inr ?_), h2⟩
        rw [(getVal_iff h2).2 h1]
        exact List.mem_cons.2 (.inl rfl)
      | frames h1 h2 =>
        refine ⟨.inl (.inr ?_), h2⟩
        rw [(getVal_iff h2).2 h1]
        exact List.mem_cons.2 (.inr (List.mem_cons.2 (.inl rfl)))
      | average h1 h2 =>
        refine ⟨.inl (.inr ?_), h2⟩
        rw [(getVal_iff h2).2 h1]
        exact List.mem_cons.2 (.inr (List.mem_cons.2 (.inr (List.mem_cons.2 (.inl rfl)))))
      | exposure h1 =>
        refine ⟨.inl (.inr ?_), by simp⟩
        rw [(hth (by simp)).2 ⟨_, h1, rfl⟩]
        exact List.mem_cons.2 (.inr (List.mem_cons.2 (.inr (List.mem_cons.2 (.inr (List.mem_cons.2 (.inl rfl)))))))
      | averaged h1 h2 h3 =>
        have := hint.2 ⟨rfl, .inl ⟨_, _, h1, h2, h3, rfl⟩⟩
        exact ⟨.inr this.1, this.2⟩
      | summed h1 h2 h3 =>
        have := hint.2 ⟨rfl, .inr ⟨_, _, h1, h2, h3, rfl⟩⟩
        exact ⟨.inr this.1, this.2⟩
      | single h1 h2 =>
        have := hgs.2 (.inl ⟨_, h1, h2, rfl, rfl⟩)
        exact ⟨.inl (.inl this.1), this.2⟩
      | glued h1 h2 =>
        obtain ⟨q, hq⟩ : ∃ q, floatVal toFloat _ = .ok q := by
          rw [h1] at hg
          unfold glued at hg
          simp only [h2] at hg
          cases hq : floatVal toFloat _ with
          | error x => rw [hq] at hg; cases hg
          | ok q => exact ⟨q, hq⟩
        have := hgs.2 (.inr ⟨_, _, _, h1, h2, hq, .inl ⟨rfl, rfl⟩⟩)
        exact ⟨.inl (.inl this.1), this.2⟩
      | overlap h1 h2 h3 =>
        have := hgs.2 (.inr ⟨_, _, _, h1, h2, number_iff.2 h3, .inr (.inl ⟨rfl, rfl⟩)⟩)
        exact ⟨.inl (.inl this.1), this.2⟩
      | windows h1 h2 =>
        obtain ⟨q, hq⟩ : ∃ q, floatVal toFloat _ = .ok q := by
          rw [h1] at hg
          unfold glued at hg
          simp only [h2] at hg
          cases hq : floatVal toFloat _ with
          | error x => rw [hq] at hg; cases hg
          | ok q => exact ⟨q, hq⟩
        have := hgs.2 (.inr ⟨_, _, _, h1, h2, hq, .inr (.inr ⟨rfl, rfl⟩)⟩)
        exact ⟨.inl (.inl this.1), this.2⟩

theorem laser_says {toFloat : Text → Py ℚ} {cal r : List (Text × Val)} {m : Sel Microscope}
    (h : laser m (laserWavelength toFloat cal) = .ok r) (k : Text) (v : Val) : (k, v) ∈ removeNone r ↔ LaserSays toFloat cal m k v := by
  have hw : ∀ q, laserWavelength toFloat cal = some q ↔ ∃ v, getKw "Laser_Wavelength".toList cal = some v ∧ Number toFloat v q ∧ 1 / 100000000 < |q| := by
    intro q
    unfold laserWavelength
    cases hg : getKw "Laser_Wavelength".toList cal with
    | none =>
      have : isClose 0 0 = true := isClose_zero.2 (by norm_num)
      simp [floatVal, this]
    | some w =>
      rw [Option.getD_some]
      constructor
      · intro e
        cases hf : floatVal toFloat w with
        | error x => rw [hf] at e; cases e
        | ok x =>
          rw [hf] at e
          simp only [] at e
          split_ifs at e with c
          injection e with e
          subst e
          exact ⟨w, rfl, number_iff.1 hf, not_le.1 fun hh => c (isClose_zero.2 hh)⟩
      · rintro ⟨w', e, h1, h2⟩
        injection e with e
        subst e
        rw [number_iff.2 h1]
        simp only []
        rw [if_neg fun hh => absurd (isClose_zero.1 hh) (not_le.2 h2)]
  unfold laser at h
  split at h
  · rename_i n o
    cases h
    rw [mem_removeNone, List.mem_cons]
    constructor
    · rintro ⟨h1 | h1, h2⟩
      · injection h1 with h1 h3
        subst h1 h3
        exact .objective rfl h2
      · cases hq : laserWavelength toFloat cal with
        | none => rw [hq] at h1; cases h1
        | some q =>
          rw [hq] at h1
          simp only [List.mem_singleton, Prod.mk.injEq] at h1
          obtain ⟨rfl, rfl⟩ := h1
          obtain ⟨w, h3, h4, h5⟩ := (hw q).1 hq
          exact .wavelength h3 h4 h5
    · intro hs
      cases hs with
      | objective h1 h2 =>
        injection h1 with h1
        injection h1 with h1 h3
        injection h3 with h3
        subst h3
        exact ⟨.inl rfl, h2⟩
      | wavelength h1 h2 h3 =>
        rw [(hw _).2 ⟨_, h1, h2, h3⟩]
        exact ⟨.inr (by simp), by simp⟩
  · cases h

theorem blaze_says {toFloat : Text → Py ℚ} {s : Option Spectrometer} {b v : Val} (h : blazeOf toFloat s = .ok b) (hv : v ≠ .none) :
    b = v ↔ ∃ serial g, s = some ⟨serial, .one g⟩ ∧ ((g.blaze = v ∧ ∀ t, g.blaze ≠ .str t) ∨
      (∃ t a q, g.blaze = .str (t ++ "NM".toList) ∧ First 'N' (t ++ "NM".toList) a ∧ toFloat a = .ok q ∧ v = .num q) ∨
      (∃ t, g.blaze = .str t ∧ (∀ a, t ≠ a ++ "NM".toList) ∧ v = .str t)) := by
  unfold blazeOf at h
  cases s with
  | none =>
    cases h
    simp [hv.symm]
  | some s =>
    obtain ⟨serial, gr⟩ := s
    cases gr with
    | many l => cases h
    | one g =>
      simp only [] at h
      cases hb : g.blaze with
      | str t =>
        rw [hb] at h
        simp only [] at h
        split_ifs at h with c
        · have ht : t = t.take (t.length - 2) ++ "NM".toList := by
            conv_lhs => rw [← List.take_append_drop (t.length - 2) t]
            rw [c]
          cases hf : toFloat ((splitChar 'N' t).headD []) with
          | error e => rw [hf] at h; cases h
          | ok q =>
            rw [hf] at h
            cases h
            constructor
            · rintro rfl
              refine ⟨serial, g, rfl, .inr (.inl ⟨t.take (t.length - 2), _, q, ?_, ?_, hf, rfl⟩)⟩
              · rw [hb, ← ht]
              · rw [← ht]
                exact first_iff.2 rfl
            · rintro ⟨serial', g', e, h1⟩
              injection e with e
              injection e with e1 e2
              injection e2 with e2
              subst e2
              rcases h1 with ⟨_, h2⟩ | ⟨t', a, q', h2, h3, h4, rfl⟩ | ⟨t', h2, h3, _⟩
              · exact absurd hb (h2 t)
              · rw [hb] at h2
                injection h2 with h2
                rw [← h2] at h3
                rw [first_iff.1 h3, h4] at hf
                injection hf with hf
                rw [hf]
              · rw [hb] at h2
                injection h2 with h2
                subst h2
                exact absurd ht (h3 _)
        · cases h
          have hn : ∀ a, t ≠ a ++ "NM".toList := by
            rintro a rfl
            exact c (by simp)
          constructor
          · rintro rfl
            exact ⟨serial, g, rfl, .inr (.inr ⟨t, hb, hn, rfl⟩)⟩
          · rintro ⟨serial', g', e, h1⟩
            injection e with e
            injection e with e1 e2
            injection e2 with e2
            subst e2
            rcases h1 with ⟨_, h2⟩ | ⟨t', a, q', h2, h3, h4, rfl⟩ | ⟨t', h2, h3, rfl⟩
            · exact absurd hb (h2 t)
            · rw [hb] at h2
              injection h2 with h2
              exact absurd h2 (hn _)
            · rw [hb] at h2
              exact h2
      | none =>
        rw [hb] at h
        cases h
        constructor
        · intro e; exact absurd e.symm hv
        · rintro ⟨serial', g', e, h1⟩
          injection e with e
          injection e with e1 e2
          injection e2 with e2
          subst e2
          rw [hb] at h1
          rcases h1 with ⟨h1, _⟩ | ⟨t', a, q', h2, h3⟩ | ⟨t', h2, h3⟩
          · exact h1
          · cases h2
          · cases h2
      | num q =>
        rw [hb] at h
        cases h
        constructor
        · rintro rfl
          exact ⟨serial, g, rfl, .inl ⟨hb, by rw [hb]; simp⟩⟩
        · rintro ⟨serial', g', e, h1⟩
          injection e with e
          injection e with e1 e2
          injection e2 with e2
          subst e2
          rw [hb] at h1
          rcases h1 with ⟨h1, _⟩ | ⟨t', a, q', h2, h3⟩ | ⟨t', h2, h3⟩
          · exact h1
          · cases h2
          · cases h2
      | bool q =>
        rw [hb] at h
        cases h
        constructor
        · rintro rfl
          exact ⟨serial, g, rfl, .inl ⟨hb, by rw [hb]; simp⟩⟩
        · rintro ⟨serial', g', e, h1⟩
          injection e with e
          injection e with e1 e2
          injection e2 with e2
          subst e2
          rw [hb] at h1
          rcases h1 with ⟨h1, _⟩ | ⟨t', a, q', h2, h3⟩ | ⟨t', h2, h3⟩
          · exact h1
          · cases h2
          · cases h2

theorem groove_says {toFloat : Text → Py ℚ} {l : List (Text × Val)} {b v : Val} (h : grooveOf toFloat l = .ok b) (hv : v ≠ .none) :
    b = v ↔ ∃ t a q, getKw "Groove_Density".toList l = some (.str t) ∧ First ' ' t a ∧ toFloat a = .ok q ∧ v = .num q := by
  unfold grooveOf at h
  cases hg : getKw "Groove_Density".toList l with
  | none =>
    rw [hg] at h
    cases h
    simp [hv.symm]
  | some w =>
    rw [hg] at h
    cases w with
    | none => cases h
    | num q => cases h
    | bool q => cases h
    | str t =>
      simp only [] at h
      cases hf : toFloat ((splitChar ' ' t).headD []) with
      | error e => rw [hf] at h; cases h
      | ok q =>
        rw [hf] at h
        cases h
        constructor
        · rintro rfl
          exact ⟨t, _, q, rfl, first_iff.2 rfl, hf, rfl⟩
        · rintro ⟨t', a, q', h1, h2, h3, rfl⟩
          injection h1 with h1
          injection h1 with h1
          subst h1
          rw [first_iff.1 h2, h3] at hf
          injection hf with hf
          rw [hf]

theorem slits_says {l : List (Text × Val)} {k : Text} {v : Val} : (k, v) ∈ slits l ↔
    ∃ a b c e, getKw "Slit_Entrance-Front".toList l = some (.num a) ∧ getKw "Slit_Entrance-Side".toList l = some (.num b) ∧
      getKw "Slit_Exit-Front".toList l = some (.num c) ∧ getKw "Slit_Exit-Side".toList l = some (.num e) ∧
      ((k = "entrance_slit_width".toList ∧ v = .num (max a b / 1000)) ∨ (k = "exit_slit_width".toList ∧ v = .num (max c e / 1000))) := by
  have hm : ∀ a b : ℚ, max (a / 1000) (b / 1000) = max a b / 1000 := fun a b => by
    rcases le_total a b with h | h
    · rw [max_eq_right h, max_eq_right (by linarith)]
    · rw [max_eq_left h, max_eq_left (by linarith)]
  unfold slits
  split
  · rename_i a b c e h1 h2 h3 h4
    have h1 := (getVal_iff (by simp)).1 h1
    have h2 := (getVal_iff (by simp)).1 h2
    have h3 := (getVal_iff (by simp)).1 h3
    have h4 := (getVal_iff (by simp)).1 h4
    rw [h1, h2, h3, h4, hm, hm]
    simp only [List.mem_cons, Prod.mk.injEq, List.not_mem_nil, or_false, Option.some.injEq, Val.num.injEq]
    constructor
    · intro h
      exact ⟨a, b, c, e, rfl, rfl, rfl, rfl, h⟩
    · rintro ⟨a', b', c', e', rfl, rfl, rfl, rfl, h⟩
      exact h
  · rename_i hno
    constructor
    · intro h; cases h
    · rintro ⟨a, b, c, e, h1, h2, h3, h4, _⟩
      exact (hno a b c e ((getVal_iff (by simp)).2 h1) ((getVal_iff (by simp)).2 h2) ((getVal_iff (by simp)).2 h3) ((getVal_iff (by simp)).2 h4)).elim

theorem spectrometer_says {toFloat : Text → Py ℚ} {hw : List (Text × Spectrometer)} {cal l d : List (Text × Val)} {n n' : Text}
    (h : spectrometer toFloat hw (getVal "Center_Wavelength" cal) (n, .items l) = .ok (n', d)) :
    n' = n ∧ ∀ k v, (k, v) ∈ d ↔ SpecSays toFloat cal l (getKw n hw) k v := by
  unfold spectrometer at h
  simp only [bind, Except.bind] at h
  cases hb : blazeOf toFloat (getKw n hw) with
  | error e => rw [hb] at h; cases h
  | ok b =>
    rw [hb] at h
    simp only [] at h
    cases hg : grooveOf toFloat l with
    | error e => rw [hg] at h; cases h
    | ok g =>
      rw [hg] at h
      simp only [] at h
      injection h with h
      injection h with h1 h2
      refine ⟨h1.symm, fun k v => ?_⟩
      rw [← h2, mem_removeNone, List.mem_append, slits_says]
      constructor
      · rintro ⟨h1 | ⟨a, b', c, e, e1, e2, e3, e4, ⟨rfl, rfl⟩ | ⟨rfl, rfl⟩⟩, h2⟩
        · simp only [List.mem_cons, Prod.mk.injEq, List.not_mem_nil, or_false] at h1
          rcases h1 with ⟨rfl, e⟩ | ⟨rfl, e⟩ | ⟨rfl, e⟩ | ⟨rfl, e⟩
          · exact .center ((getVal_iff h2).1 e.symm) h2
          · obtain ⟨serial, gr, e1, ⟨e2, e3⟩ | ⟨t, a, q, e2, e3, e4, rfl⟩ | ⟨t, e2, e3, rfl⟩⟩ := (blaze_says hb h2).1 e.symm
            · have := SpecSays.blazeNumber (toFloat := toFloat) (cal := cal) (l := l) e1 (by rw [e2]; exact h2) e3
              rw [e2] at this
              exact this
            · exact .blazeNm e1 e2 e3 e4
            · exact .blazeText e1 e2 e3
          · exact .model ((getVal_iff h2).1 e.symm) h2
          · obtain ⟨t, a, q, e1, e2, e3, rfl⟩ := (groove_says hg h2).1 e.symm
            exact .groove e1 e2 e3
        · exact .entrance e1 e2 e3 e4
        · exact .exit e1 e2 e3 e4
      · intro hs
        cases hs with
        | center h1 h2 =>
          refine ⟨.inl ?_, h2⟩
          rw [(getVal_iff h2).2 h1]
          exact List.mem_cons.2 (.inl rfl)
        | model h1 h2 =>
          refine ⟨.inl ?_, h2⟩
          rw [(getVal_iff h2).2 h1]
          exact List.mem_cons.2 (.inr (List.mem_cons.2 (.inr (List.mem_cons.2 (.inl rfl)))))
        | groove h1 h2 h3 =>
          refine ⟨.inl ?_, by simp⟩
          rw [(groove_says hg (by simp)).2 ⟨_, _, _, h1, h2, h3, rfl⟩]
          exact List.mem_cons.2 (.inr (List.mem_cons.2 (.inr (List.mem_cons.2 (.inr (List.mem_cons.2 (.inl rfl)))))))
        | blazeNumber h1 h2 h3 =>
          refine ⟨.inl ?_, h2⟩
          rw [(blaze_says hb h2).2 ⟨_, _, h1, .inl ⟨rfl, h3⟩⟩]
          exact List.mem_cons.2 (.inr (List.mem_cons.2 (.inl rfl)))
        | blazeNm h1 h2 h3 h4 =>
          refine ⟨.inl ?_, by simp⟩
          rw [(blaze_says hb (by simp)).2 ⟨_, _, h1, .inr (.inl ⟨_, _, _, h2, h3, h4, rfl⟩)⟩]
          exact List.mem_cons.2 (.inr (List.mem_cons.2 (.inl rfl)))
        | blazeText h1 h2 h3 =>
          refine ⟨.inl ?_, by simp⟩
          rw [(blaze_says hb (by simp)).2 ⟨_, _, h1, .inr (.inr ⟨_, h2, h3, rfl⟩)⟩]
          exact List.mem_cons.2 (.inr (List.mem_cons.2 (.inl rfl)))
        | entrance h1 h2 h3 h4 => exact ⟨.inr ⟨_, _, _, _, h1, h2, h3, h4, .inl ⟨rfl, rfl⟩⟩, by simp⟩
        | exit h1 h2 h3 h4 => exact ⟨.inr ⟨_, _, _, _, h1, h2, h3, h4, .inr ⟨rfl, rfl⟩⟩, by simp⟩

theorem general_says {f : File} {r : List (Text × Val)} (h : general f = .ok r) :
    (∀ k v, GeneralSays f k v → (k, v) ∈ removeNone r) ∧ (r.map Prod.fst).Sublist ["title".toList, "original_filename".toList, "date".toList, "time".toList] := by
  unfold general at h
  cases ht : f.recordTime with
  | none =>
    rw [ht] at h
    cases h
    refine ⟨?_, by simp⟩
    intro k v hs
    rw [mem_removeNone]
    cases hs with
    | title h1 =>
      refine ⟨?_, by simp⟩
      rw [first_iff.1 h1]
      exact List.mem_cons.2 (.inl rfl)
    | file => exact ⟨List.mem_cons.2 (.inr (List.mem_cons.2 (.inl rfl))), by simp⟩
    | date h1 => rw [ht] at h1; cases h1
    | time h1 => rw [ht] at h1; cases h1
  | some t =>
    rw [ht] at h
    simp only [] at h
    cases hd : dateTime t with
    | error e => rw [hd] at h; cases h
    | ok d =>
      rw [hd] at h
      cases h
      unfold dateTime at hd
      split at hd
      · rename_i a u hsp
        split at hd
        · rename_i m y l hsd
          cases hd
          refine ⟨?_, by simp⟩
          intro k v hs
          rw [mem_removeNone]
          cases hs with
          | title h1 =>
            refine ⟨?_, by simp⟩
            rw [first_iff.1 h1]
            exact List.mem_cons.2 (.inl rfl)
          | file => exact ⟨List.mem_cons.2 (.inr (List.mem_cons.2 (.inl rfl))), by simp⟩
          | @date m' d' y' t' h1 h2 =>
            rw [ht] at h1
            injection h1 with h1
            subst h1
            have hns : ' ' ∉ m' ++ '/' :: d' ++ '/' :: y' := by
              intro hmem
              simp only [List.mem_append, List.mem_cons] at hmem
              rcases hmem with (hm | hm | hm) | hm | hm
              · exact (h2 ' ' (by simp [hm])).2 rfl
              · exact absurd hm (by decide)
              · exact (h2 ' ' (by simp [hm])).2 rfl
              · exact absurd hm (by decide)
              · exact (h2 ' ' (by simp [hm])).2 rfl
            rw [splitChar_append hns] at hsp
            injection hsp with hsp _
            subst hsp
            have hm' : '/' ∉ m' := fun hm => (h2 '/' (by simp [hm])).1 rfl
            have hd' : '/' ∉ d' := fun hm => (h2 '/' (by simp [hm])).1 rfl
            have hy' : '/' ∉ y' := fun hm => (h2 '/' (by simp [hm])).1 rfl
            have : splitChar '/' (m' ++ '/' :: d' ++ '/' :: y') = [m', d', y'] := by
              rw [List.append_assoc, List.cons_append, splitChar_append hm', splitChar_append hd', splitChar_none hy']
            rw [this] at hsd
            injection hsd with e1 e2
            injection e2 with e2 e3
            subst e1 e2 e3
            exact ⟨by simp, by simp⟩
          | @time d' t' a' h1 h2 h3 =>
            rw [ht] at h1
            injection h1 with h1
            subst h1
            rw [splitChar_append h2] at hsp
            injection hsp with e1 e2
            have hu : t' = u := by
              by_cases hc : ' ' ∈ t'
              · obtain ⟨p, q, rfl, hp⟩ := exists_first hc
                rw [splitChar_append hp] at e2
                injection e2 with _ e2
                exact absurd e2 (splitChar_ne_nil _ _)
              · rw [splitChar_none hc] at e2
                injection e2
            subst hu
            rw [first_iff.1 h3]
            exact ⟨by simp, by simp⟩
        · cases hd
      · cases hd

theorem quantity_says (lumispy : Bool) (f : File) (v : Val) : ("quantity".toList, v) ∈ removeNone (signal lumispy f) ↔
    ∃ q u, f.label = some q ∧ f.dataLabel = some u ∧ v = .str (q ++ " (".toList ++ u ++ ")".toList) := by
  rw [mem_removeNone]
  unfold signal
  rw [List.mem_cons]
  have hne : ¬ ("quantity".toList, v) = ("signal_type".toList, Val.str (if lumispy then "Luminescence".toList else [])) := by
    intro e
    injection e with e
    exact absurd e (by decide)
  cases hlb : f.label with
  | none =>
    constructor
    · rintro ⟨h | h, _⟩
      · exact absurd h hne
      · cases h
    · rintro ⟨q, u, h, _⟩
      cases h
  | some q =>
    cases hdl : f.dataLabel with
    | none =>
      constructor
      · rintro ⟨h | h, _⟩
        · exact absurd h hne
        · cases h
      · rintro ⟨q, u, _, h, _⟩
        cases h
    | some u =>
      constructor
      · rintro ⟨h | h, _⟩
        · exact absurd h hne
        · rw [List.mem_singleton] at h
          injection h with _ h
          exact ⟨q, u, rfl, rfl, h⟩
      · rintro ⟨q', u', h1, h2, h3⟩
        injection h1 with h1
        injection h2 with h2
        subst h1 h2 h3
        exact ⟨.inr (List.mem_singleton.2 rfl), fun e => by cases e⟩

theorem spectrometers_says {toFloat : Text → Py ℚ} {hw : List (Text × Spectrometer)} {cal : List (Text × Val)} {us : List (Text × Info)}
    {s : List (Text × List (Text × Val))} (hs : us.mapM (spectrometer toFloat hw (getVal "Center_Wavelength" cal)) = .ok s) :
    s.map Prod.fst = us.map Prod.fst ∧ ∀ (i : Nat) n l, us[i]? = some (n, Info.items l) → ∃ d, s[i]? = some (n, d) ∧
      ∀ k v, (k, v) ∈ d ↔ SpecSays toFloat cal l (getKw n hw) k v := by
  induction us generalizing s with
  | nil =>
    cases hs
    exact ⟨rfl, by simp⟩
  | cons e us ih =>
    rw [List.mapM_cons] at hs
    simp only [bind, Except.bind] at hs
    split at hs
    · cases hs
    rename_i x hx
    split at hs
    · cases hs
    rename_i xs hxs
    cases hs
    obtain ⟨i1, i2⟩ := ih hxs
    have hx1 : x.1 = e.1 := by
      unfold spectrometer at hx
      simp only [bind, Except.bind] at hx
      split at hx
      · cases hx
      split at hx
      · cases hx
      cases hx
      rfl
    refine ⟨by simp only [List.map_cons, i1, hx1], ?_⟩
    intro i n l hi
    cases i with
    | succ i => exact i2 i n l hi
    | zero =>
      simp only [List.getElem?_cons_zero, Option.some.injEq] at hi
      subst hi
      obtain ⟨n', d'⟩ := x
      obtain ⟨rfl, h2⟩ := spectrometer_says hx
      exact ⟨d', rfl, h2⟩

/-- C107, partial: see the negations below for what is missing. The title is the name of the file up to its
first dot, date and time are those of the record. Quantity and unit are those of the document. Detector, laser,
objective and spectrometers have exactly the settings which the groups of the file and the hardware that was
used say, in seconds and millimetres, where the integration time is the exposure, times the number of
accumulations unless they were averaged. -/
theorem C107_setup_partial {toFloat : Text → Py ℚ} {lumispy : Bool} {f : File} {r : Result} (hr : read toFloat lumispy f = .ok r) :
    r.info = process f.groups ∧
    (∀ k v, GeneralSays f k v → (k, v) ∈ r.metadata.general) ∧
    (r.metadata.general.map Prod.fst).Sublist ["title".toList, "original_filename".toList, "date".toList, "time".toList] ∧
    ("signal_type".toList, Val.str (if lumispy then "Luminescence".toList else [])) ∈ r.metadata.signal ∧
    (∀ v, ("quantity".toList, v) ∈ r.metadata.signal ↔ ∃ q u, f.label = some q ∧ f.dataLabel = some u ∧ v = .str (q ++ " (".toList ++ u ++ ")".toList)) ∧
    (∀ d, getKw "Detector".toList r.info = some (.items d) → ∀ ex, ((getKw "Experiment".toList r.info = none ∧ ex = none) ∨
        ∃ e, getKw "Experiment".toList r.info = some (.items e) ∧ ex = some e) →
      ∀ k v, (k, v) ∈ r.metadata.detector ↔ DetectorSays toFloat d ex f.datasets k v) ∧
    (∀ cal, getKw "Calibration".toList r.info = some (.items cal) →
      (∀ k v, (k, v) ∈ r.metadata.laser ↔ LaserSays toFloat cal r.microscopes k v) ∧
      ∀ us, getKw "Spectrometers".toList r.info = some (.sub us) → r.metadata.spectrometers.map Prod.fst = us.map Prod.fst ∧
        ∀ (i : Nat) n l, us[i]? = some (n, Info.items l) → ∃ d, r.metadata.spectrometers[i]? = some (n, d) ∧
          ∀ k v, (k, v) ∈ d ↔ SpecSays toFloat cal l (getKw n r.spectrometers) k v) := by
  unfold Verif.TrivistaMeta.read at hr
  simp only [bind, Except.bind] at hr
  split at hr
  · cases hr
  split at hr
  · cases hr
  split at hr
  · cases hr
  split at hr
  · cases hr
  split at hr
  · cases hr
  rename_i hm
  cases hr
  rename_i md _
  unfold mapMetadata at hm
  simp only [bind, Except.bind] at hm
  split at hm
  · cases hm
  rename_i g hg
  split at hm
  · cases hm
  rename_i d hd
  split at hm
  · cases hm
  rename_i l hl
  split at hm
  · cases hm
  rename_i s hs
  cases hm
  obtain ⟨g1, g2⟩ := general_says hg
  refine ⟨rfl, g1, ?_, ?_, ?_, ?_, ?_⟩
  · exact List.Sublist.trans (List.Sublist.map _ List.filter_sublist) g2
  · show _ ∈ removeNone (signal lumispy f)
    rw [mem_removeNone]
    exact ⟨List.mem_cons.2 (.inl rfl), fun e => Val.noConfusion e⟩
  · exact quantity_says lumispy f
  · intro d' hd' ex hex k v
    apply detector_says hd
    · unfold items
      rw [hd']
    · unfold items
      rcases hex with ⟨e1, rfl⟩ | ⟨e, e1, rfl⟩ <;> rw [e1]
  · intro cal hcal
    have hic : items "Calibration" (process f.groups) = some cal := by unfold items; rw [hcal]
    rw [hic] at hl hs
    rw [Option.getD_some] at hl hs
    refine ⟨laser_says hl, ?_⟩
    intro us hus
    rw [hus] at hs
    simp only [] at hs
    exact spectrometers_says hs

/-- C107: of the hardware in the file, the laser with the wavelength of the calibration, the detector with the
name in the groups, the objective that is enabled, and for each spectrometer that with its serial number
and the grating with its groove density are chosen, if these are unique. -/
theorem C107_hardware {toFloat : Text → Py ℚ} {lumispy : Bool} {f : File} {r : Result} (hr : read toFloat lumispy f = .ok r) :
    (∀ cal c l a, getKw "Calibration".toList r.info = some (.items cal) → getKw "Laser_Wavelength".toList cal = some (.num c) → f.hardware.lasers = .many l →
      Only (fun a => ∃ w, a.wavelength = some w ∧ Matches c w) l a → r.lasers = .one a) ∧
    (∀ d n l a, getKw "Detector".toList r.info = some (.items d) → getKw "Name".toList d = some (.str n) → f.hardware.detectors = .many l →
      Only (fun d => d.name = n) l a → r.detectors = .one a) ∧
    (∀ l m o, f.hardware.microscopes = .many l → OneEnabled l m o → r.microscopes = .one { m with objectives := .one o }) ∧
    (∀ us hs n l serial groove s gs g, getKw "Spectrometers".toList r.info = some (.sub us) → f.hardware.spectrometers = .many hs →
      Used us n l serial groove → Only (fun s => s.serial = serial) hs s → s.gratings = .many gs → Only (fun g => g.groove = groove) gs g →
      getKw n r.spectrometers = some { s with gratings := .one g }) := by
  unfold Verif.TrivistaMeta.read at hr
  simp only [bind, Except.bind] at hr
  split at hr
  · cases hr
  rename_i v1 h1
  split at hr
  · cases hr
  rename_i v2 h2
  split at hr
  · cases hr
  rename_i v3 h3
  split at hr
  · cases hr
  rename_i v4 h4
  split at hr
  · cases hr
  rename_i hm
  cases hr
  refine ⟨?_, ?_, ?_, ?_⟩
  · intro cal c l a e1 e2 e3 e4
    have e1 : items "Calibration" (process f.groups) = some cal := by
      unfold items
      dsimp only at e1
      rw [e1]
    rw [e1, Option.bind_some, e2, e3, laser_only e4] at h1
    cases h1
    rfl
  · intro d n l a e1 e2 e3 e4
    have e1 : items "Detector" (process f.groups) = some d := by
      unfold items
      dsimp only at e1
      rw [e1]
    rw [e1, Option.bind_some, e2, e3, detector_only e4] at h2
    cases h2
    rfl
  · intro l m o e1 e2
    rw [e1, objective_only e2] at h3
    cases h3
    rfl
  · intro us hs n l serial groove s gs g e1 e2 e3 e4 e5 e6
    rw [e2] at h4
    exact spectrometer_only h4 e1 e3 e4 e5 e6

/-! ### Examples -/

def t (s : String) : Text := s.toList

/-- Whole numbers. -/
def whole (t : Text) : Py ℚ := if t ≠ [] ∧ t.all isDigit then .ok (decVal t) else .error .valueError

/-- Settings with one spectrometer. -/
def exGroups : List Group :=
  [.items (t "Calibration") [(t "Center_Wavelength", .num 500), (t "Laser_Wavelength", .num 532)],
   .items (t "Detector") [(t "Name", .str (t "CCD")), (t "Exposure_Time_(ms)", .num 2000), (t "No_of_Accumulations", .num 3),
     (t "Calc_Average", .bool false), (t "Detector_Temperature", .num (-75))],
   .items (t "Experiment") [(t "Overlap (%)", .str (t "10"))],
   .groups (t "Spectrometers") [.items (t "Spectrometer") [(t "Serialnumber", .num 7), (t "Groove_Density", .str (t "300 g/mm")), (t "Model", .str (t "SP-2")),
     (t "Slit_Entrance-Front", .num 100), (t "Slit_Entrance-Side", .num 0), (t "Slit_Exit-Front", .num 0), (t "Slit_Exit-Side", .num 50)]]]

def exHardware : Hardware :=
  { lasers := .many [⟨t "blue", some 405⟩, ⟨t "green", some 532⟩, ⟨t "lamp", none⟩],
    detectors := .many [⟨t "CCD"⟩, ⟨t "PMT"⟩],
    microscopes := .many [⟨t "A", .many [⟨false, .num 10⟩, ⟨true, .num 50⟩]⟩, ⟨t "B", .many []⟩],
    spectrometers := .many [⟨.num 7, .many [⟨.str (t "150 g/mm"), .str (t "800NM")⟩, ⟨.str (t "300 g/mm"), .str (t "500NM")⟩]⟩, ⟨.num 8, .many []⟩] }

def exFile : File :=
  { fileName := t "sample.tvf", recordTime := some (t "05/16/2022 14:08:09.123"), label := some (t "Counts"), dataLabel := some (t "Cnt"),
    datasets := 4, groups := exGroups, hardware := exHardware }

/-- The example is read. -/
theorem exFile_read : (read whole false exFile).toOption.map Result.metadata = some
    { general := [(t "title", .str (t "sample")), (t "original_filename", .str (t "sample.tvf")), (t "date", .str (t "2022-05-16")), (t "time", .str (t "14:08:09"))],
      signal := [(t "signal_type", .str []), (t "quantity", .str (t "Counts (Cnt)"))],
      detector := [(t "glued_spectrum", .bool true), (t "glued_spectrum_overlap", .num 10), (t "glued_spectrum_windows", .num 4), (t "temperature", .num (-75)),
        (t "frames", .num 3), (t "processing.calc_average", .bool false), (t "exposure_per_frame", .num 2), (t "integration_time", .num 6)],
      laser := [(t "objective_magnification", .num 50), (t "wavelength", .num 532)],
      spectrometers := [(t "Spectrometer", [(t "central_wavelength", .num 500), (t "Grating.blazing_wavelength", .num 500), (t "model", .str (t "SP-2")),
        (t "Grating.groove_density", .num 300), (t "entrance_slit_width", .num (1 / 10)), (t "exit_slit_width", .num (1 / 20))])] } := by
  decide +kernel

/-- The names in the example are different. -/
example : Distinct exGroups := by
  refine .mk (by decide +kernel) ?_
  intro n l h
  simp only [exGroups, List.mem_cons, List.not_mem_nil, or_false, reduceCtorEq, false_or, Group.groups.injEq] at h
  obtain ⟨_, rfl⟩ := h
  refine .mk (by decide +kernel) ?_
  intro n l h
  simp at h

/-- One objective is enabled in the example. -/
example : ∃ m o, OneEnabled [⟨t "A", .many [⟨false, .num 10⟩, ⟨true, .num 50⟩]⟩, ⟨t "B", .many []⟩] m o := by
  refine ⟨⟨t "A", .many [⟨false, .num 10⟩, ⟨true, .num 50⟩]⟩, ⟨true, .num 50⟩, ?_, by simp, ⟨_, rfl, by simp, rfl⟩, ?_⟩
  · intro m hm
    simp only [List.mem_cons, List.not_mem_nil, or_false] at hm
    rcases hm with rfl | rfl <;> exact ⟨_, rfl⟩
  · intro m hm os ho o h1 h2
    simp only [List.mem_cons, List.not_mem_nil, or_false] at hm
    rcases hm with rfl | rfl
    · injection ho with ho
      subst ho
      simp only [List.mem_cons, List.not_mem_nil, or_false] at h1
      rcases h1 with rfl | rfl
      · cases h2
      · exact ⟨rfl, rfl⟩
    · injection ho with ho
      subst ho
      cases h1

/-- The laser of the calibration is found in the example. -/
example : Only (fun a : Laser => ∃ w, a.wavelength = some w ∧ Matches 532 w) [⟨t "blue", some 405⟩, ⟨t "green", some 532⟩, ⟨t "lamp", none⟩] ⟨t "green", some 532⟩ := by
  refine ⟨by simp, ⟨532, rfl, by norm_num [Matches]⟩, ?_⟩
  rintro b hb ⟨w, h1, h2⟩
  simp only [List.mem_cons, List.not_mem_nil, or_false] at hb
  rcases hb with rfl | rfl | rfl
  · injection h1 with h1
    subst h1
    exact absurd h2 (by norm_num [Matches, abs_of_pos])
  · rfl
  · cases h1

/-! ### Negations -/

/-- C107 fails for groups of groups with one name: only the last is kept (`_process_info_serialized`). -/
theorem C107_fails_groups : ∃ gs, Has gs [t "A", t "B"] (t "x") (.num 1) ∧ ¬ ∃ p, Found (process gs) p (t "x") (.num 1) := by
  refine ⟨[.groups (t "A") [.items (t "B") [(t "x", .num 1)]], .groups (t "A") [.items (t "B") [(t "x", .num 2)]]],
    .group (by simp; left; rfl) (.item (by simp) ⟨[], [], rfl, by simp⟩), ?_⟩
  rintro ⟨p, h⟩
  have hp : process [.groups (t "A") [.items (t "B") [(t "x", .num 1)]], .groups (t "A") [.items (t "B") [(t "x", .num 2)]]] =
    [(t "A", .sub [(t "B", .items [(t "x", .num 2)])])] := rfl
  rw [hp] at h
  cases h with
  | item h1 h2 =>
    simp only [getKw] at h1
    split_ifs at h1
    cases h1
  | group h1 h2 =>
    simp only [getKw] at h1
    split_ifs at h1
    cases h1
    cases h2 with
    | item h1 h2 =>
      simp only [getKw] at h1
      split_ifs at h1
      cases h1
      revert h2
      decide +kernel
    | group h1 h2 =>
      simp only [getKw] at h1
      split_ifs at h1
      cases h1

/-- C107 fails for several groups with one name if another group has this name with the number one: that is lost. -/
theorem C107_fails_rename : process [.items (t "A1") [(t "x", .num 1)], .items (t "A") [(t "x", .num 2)], .items (t "A") [(t "x", .num 3)]] =
    [(t "A1", .items [(t "x", .num 2)]), (t "A3", .items [(t "x", .num 3)])] := rfl

/-- C107 fails for several groups with one name beside others: the second of them gets the number of the groups so far. -/
theorem C107_fails_number : process [.items (t "B") [], .items (t "A") [(t "x", .num 1)], .items (t "A") [(t "x", .num 2)]] =
    [(t "B", .items []), (t "A3", .items [(t "x", .num 2)]), (t "A1", .items [(t "x", .num 1)])] := rfl

/-- C107 fails for systems with one laser: the element is gone through as if it were a list. -/
theorem C107_fails_laser : read whole false { exFile with hardware := { exHardware with lasers := .one ⟨t "green", some 532⟩ } } = .error .typeError := rfl

/-- C107 fails for systems with one detector. -/
theorem C107_fails_detector : read whole false { exFile with hardware := { exHardware with lasers := .many [], detectors := .one ⟨t "CCD"⟩ } } = .error .typeError := rfl

/-- C107 fails for spectrometers with one grating. -/
theorem C107_fails_grating : filterSpectrometers [(t "Spectrometers", .sub [(t "S", .items [(t "Serialnumber", .num 7), (t "Groove_Density", .str (t "300"))])])]
    (.many [⟨.num 7, .one ⟨.str (t "300"), .num 500⟩⟩]) = .error .typeError := rfl

/-- C107 fails if the serial number of no spectrometer is known: a name is used before it is set. -/
theorem C107_fails_serial : filterSpectrometers [(t "Spectrometers", .sub [(t "S", .items [(t "Serialnumber", .num 9)])])]
    (.many [⟨.num 7, .many []⟩]) = .error .nameError := rfl

/-- C107 fails if no objective is enabled: a list is taken for a dictionary. -/
theorem C107_fails_objective : (filterObjectives (.many [⟨t "A", .many [⟨false, .num 10⟩]⟩])).bind (fun m => laser m none) = .error .attributeError := rfl

/-- C107 fails for times with AM or PM. -/
theorem C107_fails_time : dateTime (t "5/16/2022 2:08:09 PM") = .error .valueError := rfl

/-- C107 fails for names of files with several dots: the title ends at the first. -/
theorem C107_fails_title : general { exFile with fileName := t "Si_0.5mW.tvf", recordTime := none } =
    .ok [(t "title", .str (t "Si_0")), (t "original_filename", .str (t "Si_0.5mW.tvf"))] := rfl

/-- C107 fails for spectrometers without a second exit: the widths of the slits that are known are left out. -/
theorem C107_fails_slit : slits [(t "Slit_Entrance-Front", .num 100), (t "Slit_Entrance-Side", .num 0), (t "Slit_Exit-Front", .num 50)] = [] := rfl

end Verif.Props.TrivistaMeta
