import Verif.Props.JobinYvon
/-!
C105: the settings of a LabSpec file arrive in the metadata, each at its place.
-/
namespace Verif.Props.JobinYvon
open Verif.JobinYvon

/-- An entry of the file: its name, its text, and the number behind a label. -/
abbrev Entry := Text × Text × Option Text

/-- The entries that elements of the file describe. -/
def Entries (cs : List Node) (es : List Entry) : Prop :=
  List.Forall₂ (fun (c : Node) (e : Entry) => texts "0x6D6D616E" c.children = [e.1] ∧ texts "0x7D6C61DB" c.children = [e.2.1] ∧
    texts "0x8736F70" c.children = e.2.2.toList) cs es ∧ (es.map Prod.fst).Nodup

/-- Settings with a label and a number. -/
def labelled : List Text := ["Objective", "Grating", "ND Filter", "Laser (nm)", "Spectro (nm)"].map String.toList

/-- Settings that are numbers. -/
def numbers : List Text :=
  ["Acq. time (s)", "Accumulations", "Delay time (s)", "Binning", "Detector temperature (°C)", "Objective",
   "Grating", "ND Filter", "Laser (nm)", "Spectro (nm)", "Hole", "Laser Pol. (°)", "Raman Pol. (°)", "X (µm)",
   "Y (µm)", "Z (µm)", "Full time(s)", "Windows"].map String.toList

/-- The text that counts: the number behind the label where there is one. -/
def textFor (e : Entry) : Text := if e.1 ∈ labelled then e.2.2.getD e.2.1 else e.2.1

/-- A setting has a value: a number or a text. -/
def Setting (toFloat : Text → Py ℚ) (es : List Entry) (k : Text) (v : Val) : Prop :=
  ∃ e ∈ es, e.1 = k ∧ if k ∈ numbers then ∃ q, toFloat (textFor e) = .ok q ∧ v = .num q else v = .str (textFor e)

/-- Where settings go. -/
def table : List (Text × Text) :=
  [("Laser.wavelength", "Laser (nm)"), ("Laser.objective_magnification", "Objective"),
   ("Laser.Polarizer.polarizer_type", "Laser. Pol."), ("Laser.Polarizer.angle", "Laser Pol. (°)"),
   ("Spectrometer.central_wavelength", "Spectro (nm)"), ("Spectrometer.model", "Instrument"),
   ("Spectrometer.Grating.groove_density", "Grating"), ("Spectrometer.spectral_range", "Range"),
   ("Spectrometer.Polarizer.polarizer_type", "Raman. Pol."), ("Spectrometer.Polarizer.angle", "Raman Pol. (°)"),
   ("Detector.model", "Detector"), ("Detector.delay_time", "Delay time (s)"), ("Detector.binning", "Binning"),
   ("Detector.temperature", "Detector temperature (°C)"), ("Detector.exposure_per_frame", "Acq. time (s)"),
   ("Detector.frames", "Accumulations"), ("Detector.processing.autofocus", "Autofocus"),
   ("Detector.processing.swift", "SWIFT"), ("Detector.processing.auto_exposure", "AutoExposure"),
   ("Detector.processing.spike_filter", "Spike filter"), ("Detector.processing.de_noise", "DeNoise"),
   ("Detector.processing.ics_correction", "ICS correction"), ("Detector.processing.dark_correction", "Dark correction"),
   ("Detector.processing.inst_process", "Inst. Process")].map fun e => (e.1.toList, e.2.toList)

/-- The file has a date, settings and information that can be read; the settings include the hole and the filter. -/
structure Setup (toFloat : Text → Py ℚ) (f : File) (date setup info : List Entry) (title kind units : Text) : Prop where
  hasDate : ∃ cs, f.date = some cs ∧ Entries cs date
  hasSetup : ∃ cs, f.setup = some cs ∧ Entries cs setup
  hasInfo : ∃ cs, f.info = some cs ∧ Entries cs info
  hasTitle : f.title = some title
  signal : ∃ cs, parts "0x0" f.axes = [cs] ∧ texts "0x6D707974" cs = [kind] ∧ texts "0x7C696E75" cs = [units]
  readable : ∀ e ∈ setup, e.1 ∈ numbers → ∃ q, toFloat (textFor e) = .ok q
  angle : ∀ t, f.angle = some t → ∃ q, toFloat t = .ok q
  names : ∀ n ∈ ["measurement_type", "title", "rotation angle (rad)", "Grating (gr/mm)", "ND Filter (%)"], n.toList ∉ setup.map Prod.fst
  hole : "Hole".toList ∈ setup.map Prod.fst
  filter : "ND Filter".toList ∈ setup.map Prod.fst
  acquired : ∀ e ∈ date, e.1 = "Acquired".toList → ∃ d t, e.2.1 = d ++ ' ' :: t ∧ ' ' ∉ d ∧ ' ' ∉ t

/-- What the metadata are. -/
inductive Meta (toFloat : Text → Py ℚ) (f : File) (date setup info : List Entry) (title kind units : Text) : Text → MVal → Prop
  | entry {path key : Text} {v : Val} : (path, key) ∈ table → Setting toFloat setup key v → Meta toFloat f date setup info title kind units path (.val v)
  | density {q : ℚ} : Setting toFloat setup "ND Filter".toList (.num q) →
      Meta toFloat f date setup info title kind units "Laser.Filter.optical_density".toList (.val (.num (q / 100)))
  | slit {q : ℚ} : Setting toFloat setup "Hole".toList (.num q) →
      Meta toFloat f date setup info title kind units "Spectrometer.entrance_slit_width".toList (.val (.num (q / 100)))
  | pinhole {q : ℚ} : Setting toFloat setup "Hole".toList (.num q) →
      Meta toFloat f date setup info title kind units "Spectrometer.pinhole".toList (.val (.num (q / 100)))
  | integration {a b : ℚ} : Setting toFloat setup "Accumulations".toList (.num a) → Setting toFloat setup "Acq. time (s)".toList (.num b) →
      Meta toFloat f date setup info title kind units "Detector.integration_time".toList (.val (.num (a * b)))
  | glued {v : Val} : Setting toFloat setup "Windows".toList v →
      Meta toFloat f date setup info title kind units "Detector.glued_spectrum".toList (.bool true)
  | windows {v : Val} : Setting toFloat setup "Windows".toList v →
      Meta toFloat f date setup info title kind units "Detector.glued_spectrum_windows".toList (.val v)
  | unglued : (∀ v, ¬ Setting toFloat setup "Windows".toList v) →
      Meta toFloat f date setup info title kind units "Detector.glued_spectrum".toList (.bool false)
  | angle {t : Text} {q : ℚ} : f.angle = some t → toFloat t = .ok q →
      Meta toFloat f date setup info title kind units "Spectral_image.rotation_angle".toList (.degrees q)
  | angleUnits {t : Text} : f.angle = some t →
      Meta toFloat f date setup info title kind units "Spectral_image.rotation_angle_units".toList (.val (.str "°".toList))
  | title : Meta toFloat f date setup info title kind units "General.title".toList (.val (.str title))
  | notes {t : Text} {o : Option Text} : ("Remark".toList, t, o) ∈ info →
      Meta toFloat f date setup info title kind units "General.notes".toList (.val (.str t))
  | sample {t : Text} {o : Option Text} : ("Sample".toList, t, o) ∈ info →
      Meta toFloat f date setup info title kind units "Sample.description".toList (.val (.str t))
  | date {d t : Text} {o : Option Text} : ("Acquired".toList, d ++ ' ' :: t, o) ∈ date → ' ' ∉ d → ' ' ∉ t →
      Meta toFloat f date setup info title kind units "General.date".toList (.val (.str d))
  | time {d t : Text} {o : Option Text} : ("Acquired".toList, d ++ ' ' :: t, o) ∈ date → ' ' ∉ d → ' ' ∉ t →
      Meta toFloat f date setup info title kind units "General.time".toList (.val (.str t))
  | quantity {k u : Text} : (k = kind ∧ kind ≠ "Intens".toList ∨ kind = "Intens".toList ∧ k = "Intensity".toList) →
      (u = units ∧ units ≠ "Cnt".toList ∧ units ≠ "Cnt/sec".toList ∨ units = "Cnt".toList ∧ u = "Counts".toList ∨
        units = "Cnt/sec".toList ∧ u = "Counts/s".toList) →
      Meta toFloat f date setup info title kind units "Signal.quantity".toList (.val (.str (k ++ " (".toList ++ u ++ ")".toList)))

theorem foldlM_proj {σ β γ : Type} (f : σ → γ → Py σ) (π : σ → β) (p : γ → Bool) (g : β → γ → β)
    (h1 : ∀ s c s', p c = true → f s c = .ok s' → π s' = g (π s) c) (h2 : ∀ s c s', p c = false → f s c = .ok s' → π s' = π s) :
    ∀ (cs : List γ) (s t : σ), cs.foldlM f s = .ok t → π t = (cs.filter p).foldl g (π s)
  | [], s, t, h => by
    cases h
    rfl
  | c :: cs, s, t, h => by
    rw [List.foldlM_cons] at h
    cases e : f s c with
    | error x => rw [e] at h; cases h
    | ok s' =>
      rw [e] at h
      rw [foldlM_proj f π p g h1 h2 cs s' t h, List.filter_cons]
      cases hp : p c with
      | true => rw [h1 s c s' hp e]; rfl
      | false => rw [h2 s c s' hp e]; rfl

/-- What the element for the intensities says. -/
theorem quantity_fold {nums : Text → List ℚ} {uniform : Bool} {cs : List Node} {st : Axes} {l : List Leaf} {k v : Text}
    (h : cs.foldlM (axisChild nums uniform) {} = .ok st) (hp : parts "0x0" cs = [l]) (hk : texts "0x6D707974" l = [k])
    (hv : texts "0x7C696E75" l = [v]) : st.quantity = some k ∧ st.quantityUnits = some v := by
  obtain ⟨c, e1, e2, _⟩ := filter_parts hp
  have n12 : idType ≠ idUnits := by decide
  have q1 := foldlM_proj (axisChild nums uniform) (fun st => st.quantity) (fun c => c.id = "0x0".toList)
    (fun b c => (c.children.filter (fun c => c.id = "0x6D707974".toList)).foldl (fun _ c => some c.text) b)
    (fun s c s' e h => by
      have e : c.id = "0x0".toList := of_decide_eq_true e
      unfold axisChild at h
      rw [if_pos e] at h
      injection h with h
      subst h
      exact foldl_proj typeChild (fun s => s.quantity) (fun c => c.id = "0x6D707974".toList) (fun _ c => some c.text)
        (fun s c h => by
          have h : c.id = idType := of_decide_eq_true h
          simp only [typeChild, if_pos h])
        (fun s c h => by
          have h : ¬ c.id = idType := of_decide_eq_false h
          simp only [typeChild, if_neg h]
          split_ifs <;> rfl) c.children s)
    (fun s c s' e h => by
      have e : ¬ c.id = "0x0".toList := of_decide_eq_false e
      unfold axisChild at h
      rw [if_neg e] at h
      split_ifs at h
      · split at h <;> cases h; rfl
      · split at h <;> cases h; rfl
      · split at h <;> cases h; rfl
      · cases h; rfl) cs {} st h
  have q2 := foldlM_proj (axisChild nums uniform) (fun st => st.quantityUnits) (fun c => c.id = "0x0".toList)
    (fun b c => (c.children.filter (fun c => c.id = "0x7C696E75".toList)).foldl (fun _ c => some c.text) b)
    (fun s c s' e h => by
      have e : c.id = "0x0".toList := of_decide_eq_true e
      unfold axisChild at h
      rw [if_pos e] at h
      injection h with h
      subst h
      exact foldl_proj typeChild (fun s => s.quantityUnits) (fun c => c.id = "0x7C696E75".toList) (fun _ c => some c.text)
        (fun s c h => by
          have h : c.id = idUnits := of_decide_eq_true h
          have h' : ¬ c.id = idType := fun z => n12 (z.symm.trans h)
          simp only [typeChild, if_neg h', if_pos h])
        (fun s c h => by
          have h : ¬ c.id = idUnits := of_decide_eq_false h
          simp only [typeChild, if_neg h]
          split_ifs <;> rfl) c.children s)
    (fun s c s' e h => by
      have e : ¬ c.id = "0x0".toList := of_decide_eq_false e
      unfold axisChild at h
      rw [if_neg e] at h
      split_ifs at h
      · split at h <;> cases h; rfl
      · split at h <;> cases h; rfl
      · split at h <;> cases h; rfl
      · cases h; rfl) cs {} st h
  unfold texts at hk hv
  rw [List.map_eq_singleton_iff] at hk hv
  obtain ⟨ck, hk, rfl⟩ := hk
  obtain ⟨cv, hv, rfl⟩ := hv
  rw [e1] at q1 q2
  simp only [List.foldl_cons, List.foldl_nil, e2, hk, hv] at q1 q2
  exact ⟨q1, q2⟩

/-! ### Entries -/

theorem entry_fold {c : Node} {e : Entry} (h : texts "0x6D6D616E" c.children = [e.1] ∧ texts "0x7D6C61DB" c.children = [e.2.1] ∧
    texts "0x8736F70" c.children = e.2.2.toList) (k : Option Text) :
    c.children.foldl entryChild (k, none, none) = (some e.1, some e.2.1, e.2.2) := by
  have n12 : idName ≠ idOne := by decide
  have n13 : idName ≠ idTwo := by decide
  have n23 : idOne ≠ idTwo := by decide
  have p1 := foldl_proj entryChild (fun s => s.1) (fun c => c.id = "0x6D6D616E".toList) (fun _ c => some c.text)
    (fun s c h => by
      have h : c.id = idName := of_decide_eq_true h
      simp only [entryChild, if_pos h])
    (fun s c h => by
      have h : ¬ c.id = idName := of_decide_eq_false h
      simp only [entryChild, if_neg h]
      split_ifs <;> rfl) c.children (k, none, none)
  have p2 := foldl_proj entryChild (fun s => s.2.1) (fun c => c.id = "0x7D6C61DB".toList) (fun _ c => some c.text)
    (fun s c h => by
      have h : c.id = idOne := of_decide_eq_true h
      have h' : ¬ c.id = idName := fun z => n12 (z.symm.trans h)
      simp only [entryChild, if_neg h', if_pos h])
    (fun s c h => by
      have h : ¬ c.id = idOne := of_decide_eq_false h
      simp only [entryChild, if_neg h]
      split_ifs <;> rfl) c.children (k, none, none)
  have p3 := foldl_proj entryChild (fun s => s.2.2) (fun c => c.id = "0x8736F70".toList) (fun _ c => some c.text)
    (fun s c h => by
      have h : c.id = idTwo := of_decide_eq_true h
      have h' : ¬ c.id = idName := fun z => n13 (z.symm.trans h)
      have h'' : ¬ c.id = idOne := fun z => n23 (z.symm.trans h)
      simp only [entryChild, if_neg h', if_neg h'', if_pos h])
    (fun s c h => by
      have h : ¬ c.id = idTwo := of_decide_eq_false h
      simp only [entryChild, if_neg h]
      split_ifs <;> rfl) c.children (k, none, none)
  obtain ⟨h1, h2, h3⟩ := h
  unfold texts at h1 h2 h3
  rw [List.map_eq_singleton_iff] at h1 h2
  obtain ⟨a, h1, e1⟩ := h1
  obtain ⟨b, h2, e2⟩ := h2
  rw [h1] at p1
  rw [h2] at p2
  simp only [List.foldl_cons, List.foldl_nil] at p1 p2
  have p3 : (c.children.foldl entryChild (k, none, none)).2.2 = e.2.2 := by
    rw [p3]
    cases h : e.2.2 with
    | none =>
      rw [h] at h3
      rw [List.map_eq_nil_iff.1 h3]
      rfl
    | some t =>
      rw [h] at h3
      have h3 : List.map Leaf.text _ = [t] := h3
      rw [List.map_eq_singleton_iff] at h3
      obtain ⟨x, h3, h4⟩ := h3
      rw [h3, ← h4]
      rfl
  rw [← e1, ← e2, ← p1, ← p2, ← p3]

/-- The dictionary of entries. -/
def raw (e : Entry) : Text × Val := (e.1, .vals (some e.2.1) e.2.2)

theorem entries_fold {cs : List Node} {es : List Entry}
    (h : List.Forall₂ (fun (c : Node) (e : Entry) => texts "0x6D6D616E" c.children = [e.1] ∧ texts "0x7D6C61DB" c.children = [e.2.1] ∧
      texts "0x8736F70" c.children = e.2.2.toList) cs es) :
    ∀ (k : Option Text) (d : List (Text × Val)), (d.map Prod.fst ++ es.map Prod.fst).Nodup →
      ∃ k', cs.foldlM entry (k, d) = .ok (k', d ++ es.map raw) := by
  induction h with
  | nil =>
    intro k d _
    exact ⟨k, by simp; rfl⟩
  | @cons c e cs es hce _ ih =>
    intro k d hd
    have he : entry (k, d) c = .ok (some e.1, d ++ [raw e]) := by
      unfold entry
      rw [entry_fold hce]
      simp only []
      rw [setKw_new]
      · rfl
      · intro hm
        rw [List.map_cons, List.nodup_append] at hd
        exact hd.2.2 _ hm _ (by simp) rfl
    obtain ⟨k', hk⟩ := ih (some e.1) (d ++ [raw e]) (by
      rw [List.map_append, List.append_assoc]
      exact hd)
    refine ⟨k', ?_⟩
    rw [List.foldlM_cons, he]
    show cs.foldlM entry (some e.1, d ++ [raw e]) = _
    rw [hk, List.map_cons, List.append_assoc]
    rfl

theorem getValues_ok {cs : List Node} {es : List Entry} (h : Entries cs es) : getValues cs = .ok (es.map raw) := by
  obtain ⟨k', hk⟩ := entries_fold h.1 none [] (by simpa using h.2)
  unfold getValues
  rw [hk]
  rfl

/-! ### Dictionaries -/

theorem getKw_delKw (k k' : Text) : ∀ d : List (Text × Val), getKw k' (delKw k d) = if k' = k then none else getKw k' d
  | [] => by simp [delKw, getKw]
  | (a, v) :: d => by
    have ih := getKw_delKw k k' d
    unfold delKw at ih ⊢
    by_cases h : a = k
    · rw [List.filter_cons_of_neg (by simp [h]), ih]
      by_cases h' : k' = k
      · simp [h']
      · simp [getKw, h, Ne.symm h', h']
    · rw [List.filter_cons_of_pos (by simp [h]), getKw, getKw, ih]
      by_cases h' : a = k'
      · subst h'; simp [h]
      · simp [h']

theorem mem_setKw {k : Text} {v : Val} : ∀ {d : List (Text × Val)} {e : Text × Val}, e ∈ setKw k v d → e = (k, v) ∨ e ∈ d
  | [], e, h => by simpa [setKw] using h
  | (a, w) :: d, e, h => by
    unfold setKw at h
    split_ifs at h
    · rcases List.mem_cons.1 h with h | h
      · exact Or.inl h
      · exact Or.inr (List.mem_cons_of_mem _ h)
    · rcases List.mem_cons.1 h with h | h
      · exact Or.inr (by rw [h]; exact List.mem_cons_self ..)
      · exact (mem_setKw h).imp id (List.mem_cons_of_mem _)

theorem getKw_map {f : Val → Val} (k : Text) : ∀ d : List (Text × Val), getKw k (d.map fun e => (e.1, f e.2)) = (getKw k d).map f
  | [] => rfl
  | (a, v) :: d => by
    rw [List.map_cons, getKw, getKw, getKw_map k d]
    split_ifs <;> rfl

/-- A change of the values under some keys. -/
theorem update_fold {step : List (Text × Val) → Text → Py (List (Text × Val))} {ψ : Val → Val} {ok : Val → Prop}
    (hs : ∀ d k, (∀ v, getKw k d = some v → ok v) → ∃ d', step d k = .ok d' ∧ (∀ e ∈ d', e ∈ d ∨ ∃ v, ok v ∧ e.2 = ψ v) ∧
      ∀ k', getKw k' d' = if k' = k then (getKw k d).map ψ else getKw k' d) :
    ∀ (ks : List Text), ks.Nodup → ∀ d : List (Text × Val), (∀ k ∈ ks, ∀ v, getKw k d = some v → ok v) →
      ∃ d', ks.foldlM step d = .ok d' ∧ (∀ e ∈ d', e ∈ d ∨ ∃ v, ok v ∧ e.2 = ψ v) ∧
        ∀ k', getKw k' d' = if k' ∈ ks then (getKw k' d).map ψ else getKw k' d := by
  intro ks
  induction ks with
  | nil =>
    intro _ d _
    exact ⟨d, rfl, fun e he => Or.inl he, fun k' => by simp⟩
  | cons k ks ih =>
    intro hn d hd
    rw [List.nodup_cons] at hn
    obtain ⟨d1, a1, a2, a3⟩ := hs d k (hd k (by simp))
    obtain ⟨d2, b1, b2, b3⟩ := ih hn.2 d1 (fun k' hk' v hv => by
      have : k' ≠ k := fun e => hn.1 (e ▸ hk')
      rw [a3, if_neg this] at hv
      exact hd k' (by simp [hk']) v hv)
    refine ⟨d2, ?_, ?_, ?_⟩
    · rw [List.foldlM_cons, a1]
      exact b1
    · intro e he
      rcases b2 e he with h | h
      · exact a2 e h
      · exact Or.inr h
    · intro k'
      rw [b3, a3]
      by_cases h1 : k' = k
      · subst h1
        simp [hn.1]
      · simp [h1]

/-- The values before numbers are parsed. -/
def chosen (e : Entry) : Val := .str (textFor e)

theorem raw_lookup {es : List Entry} (hn : (es.map Prod.fst).Nodup) (k : Text) (v : Val) :
    getKw k (es.map raw) = some v ↔ ∃ e ∈ es, e.1 = k ∧ v = .vals (some e.2.1) e.2.2 := by
  induction es with
  | nil => simp [getKw]
  | cons a es ih =>
    rw [List.map_cons, List.nodup_cons] at hn
    rw [List.map_cons]
    show (if a.1 = k then some (Val.vals (some a.2.1) a.2.2) else getKw k (es.map raw)) = some v ↔ _
    by_cases h : a.1 = k
    · rw [if_pos h]
      constructor
      · intro e
        injection e with e
        exact ⟨a, by simp, h, e.symm⟩
      · rintro ⟨e, he, h1, h2⟩
        rcases List.mem_cons.1 he with rfl | he
        · rw [h2]
        · exact absurd (List.mem_map.2 ⟨e, he, h1.trans h.symm⟩) hn.1
    · rw [if_neg h, ih hn.2]
      constructor
      · rintro ⟨e, he, h1, h2⟩
        exact ⟨e, by simp [he], h1, h2⟩
      · rintro ⟨e, he, h1, h2⟩
        rcases List.mem_cons.1 he with rfl | he
        · exact absurd h1 h
        · exact ⟨e, he, h1, h2⟩

theorem firstVal_raw (es : List Entry) : (es.map raw).mapM firstVal = .ok (es.map fun e => (e.1, Val.str e.2.1)) := by
  rw [mapM_ok (g := fun e : Text × Val => (e.1, match e.2 with | .vals (some t) _ => Val.str t | v => v))]
  · rw [List.map_map]; rfl
  · intro a ha
    obtain ⟨e, _, rfl⟩ := List.mem_map.1 ha
    rfl

/-- The second value where there is one. -/
def sec : Val → Val
  | .vals _ (some t) => .str t
  | v => v

/-- The first value. -/
def fst : Val → Val
  | .vals (some t) _ => .str t
  | v => v

/-- The number. -/
def flt (toFloat : Text → Py ℚ) : Val → Val
  | .str t => match toFloat t with
    | .ok q => .num q
    | .error _ => .str t
  | v => v

theorem second_step (d : List (Text × Val)) (k : Text) (h : ∀ v, getKw k d = some v → ∃ a o, v = .vals (some a) o) :
    ∃ d', second d k = .ok d' ∧ (∀ e ∈ d', e ∈ d ∨ ∃ v, (∃ a o, v = Val.vals (some a) o) ∧ e.2 = sec v) ∧
      ∀ k', getKw k' d' = if k' = k then (getKw k d).map sec else getKw k' d := by
  unfold second
  cases hk : getKw k d with
  | none =>
    refine ⟨d, rfl, fun e he => Or.inl he, fun k' => ?_⟩
    split_ifs with e
    · rw [e, hk]; rfl
    · rfl
  | some v =>
    obtain ⟨a, o, rfl⟩ := h v hk
    cases o with
    | none =>
      refine ⟨d, rfl, fun e he => Or.inl he, fun k' => ?_⟩
      split_ifs with e
      · rw [e, hk]; rfl
      · rfl
    | some t =>
      refine ⟨setKw k (.str t) d, rfl, fun e he => ?_, fun k' => ?_⟩
      · rcases mem_setKw he with h | h
        · exact Or.inr ⟨_, ⟨a, some t, rfl⟩, by rw [h]; rfl⟩
        · exact Or.inl h
      · rw [getKw_setKw]; rfl

theorem numeric_step (toFloat : Text → Py ℚ) (d : List (Text × Val)) (k : Text)
    (h : ∀ v, getKw k d = some v → ∃ t q, v = .str t ∧ toFloat t = .ok q) :
    ∃ d', numeric toFloat d k = .ok d' ∧ (∀ e ∈ d', e ∈ d ∨ ∃ v, (∃ t q, v = Val.str t ∧ toFloat t = .ok q) ∧ e.2 = flt toFloat v) ∧
      ∀ k', getKw k' d' = if k' = k then (getKw k d).map (flt toFloat) else getKw k' d := by
  unfold numeric
  cases hk : getKw k d with
  | none =>
    refine ⟨d, rfl, fun e he => Or.inl he, fun k' => ?_⟩
    split_ifs with e
    · rw [e, hk]; rfl
    · rfl
  | some v =>
    obtain ⟨t, q, rfl, hq⟩ := h v hk
    simp only [hq]
    refine ⟨setKw k (.num q) d, rfl, fun e he => ?_, fun k' => ?_⟩
    · rcases mem_setKw he with h | h
      · exact Or.inr ⟨_, ⟨t, q, rfl, hq⟩, by rw [h]; simp [flt, hq]⟩
      · exact Or.inl h
    · rw [getKw_setKw]; simp [flt, hq]

theorem getKw_rename (old new : Text) (d : List (Text × Val)) (h : getKw new d = none) (k : Text) :
    getKw k (rename old new d) = if k = new then getKw old d else if k = old then none else getKw k d := by
  unfold rename
  cases ho : getKw old d with
  | none =>
    simp only []
    split_ifs with h1 h2
    · rw [h1, h]
    · rw [h2, ho]
    · rfl
  | some v =>
    simp only []
    rw [getKw_setKw, getKw_delKw]

theorem names_ne {es : List Entry} {k : Text} (h : k ∉ es.map Prod.fst) : getKw k (es.map raw) = none := by
  apply getKw_none
  rw [List.map_map]
  exact h

theorem extra_lookup (f : File) (d : List (Text × Val)) (k : Text) : getKw k (extra f d) =
    if k = "rotation angle (rad)".toList ∧ f.angle.isSome then f.angle.map Val.str
    else if k = "title".toList ∧ f.title.isSome then f.title.map Val.str
    else if k = "measurement_type".toList ∧ f.kind.isSome then f.kind.map Val.str else getKw k d := by
  unfold extra
  generalize "rotation angle (rad)".toList = a
  generalize "title".toList = b
  generalize "measurement_type".toList = c
  cases f.angle <;> cases f.title <;> cases f.kind <;> simp only [getKw_setKw] <;> split_ifs <;> simp_all

theorem extra_mem (f : File) (d : List (Text × Val)) {e : Text × Val} (he : e ∈ extra f d) : e ∈ d ∨ ∃ t, e.2 = .str t := by
  unfold extra at he
  revert he
  cases f.angle <;> cases f.title <;> cases f.kind <;> simp only [] <;> intro he
  · exact Or.inl he
  · rcases mem_setKw he with h | he
    · exact Or.inr ⟨_, by rw [h]⟩
    · exact Or.inl he
  · rcases mem_setKw he with h | he
    · exact Or.inr ⟨_, by rw [h]⟩
    · exact Or.inl he
  · rcases mem_setKw he with h | he
    · exact Or.inr ⟨_, by rw [h]⟩
    · rcases mem_setKw he with h | he
      · exact Or.inr ⟨_, by rw [h]⟩
      · exact Or.inl he
  · rcases mem_setKw he with h | he
    · exact Or.inr ⟨_, by rw [h]⟩
    · exact Or.inl he
  · rcases mem_setKw he with h | he
    · exact Or.inr ⟨_, by rw [h]⟩
    · rcases mem_setKw he with h | he
      · exact Or.inr ⟨_, by rw [h]⟩
      · exact Or.inl he
  · rcases mem_setKw he with h | he
    · exact Or.inr ⟨_, by rw [h]⟩
    · rcases mem_setKw he with h | he
      · exact Or.inr ⟨_, by rw [h]⟩
      · exact Or.inl he
  · rcases mem_setKw he with h | he
    · exact Or.inr ⟨_, by rw [h]⟩
    · rcases mem_setKw he with h | he
      · exact Or.inr ⟨_, by rw [h]⟩
      · rcases mem_setKw he with h | he
        · exact Or.inr ⟨_, by rw [h]⟩
        · exact Or.inl he

/-- Names that do not name a setting, or name it differently. -/
def special : List Text :=
  ["measurement_type", "title", "rotation angle (rad)", "Grating (gr/mm)", "ND Filter (%)", "Grating", "ND Filter"].map String.toList

theorem cleaned {toFloat : Text → Py ℚ} {f : File} {date setup info : List Entry} {title kind units : Text}
    (h : Setup toFloat f date setup info title kind units) : ∃ o, getOriginal toFloat f = .ok o ∧
      o.date = date.map (fun e => (e.1, Val.str e.2.1)) ∧ o.info = info.map (fun e => (e.1, Val.str e.2.1)) ∧
      (∀ k, k ∉ special → ∀ v, getKw k o.setup = some v ↔ Setting toFloat setup k v) ∧
      (∀ v, getKw "Grating (gr/mm)".toList o.setup = some v ↔ Setting toFloat setup "Grating".toList v) ∧
      (∀ v, getKw "ND Filter (%)".toList o.setup = some v ↔ Setting toFloat setup "ND Filter".toList v) ∧
      (∀ v, getKw "rotation angle (rad)".toList o.setup = some v ↔ ∃ t q, f.angle = some t ∧ toFloat t = .ok q ∧ v = .num q) := by
  obtain ⟨cd, d1, d2⟩ := h.hasDate
  obtain ⟨cs, s1, s2⟩ := h.hasSetup
  obtain ⟨ci, i1, i2⟩ := h.hasInfo
  have rsv : ∀ n ∈ ["measurement_type", "title", "rotation angle (rad)", "Grating (gr/mm)", "ND Filter (%)"].map String.toList,
      getKw n (setup.map raw) = none := by
    intro n hn
    obtain ⟨m, hm, rfl⟩ := List.mem_map.1 hn
    exact names_ne (h.names m hm)
  -- second values
  have base : ∀ k, k ∉ ["measurement_type", "title", "rotation angle (rad)"].map String.toList →
      getKw k (extra f (setup.map raw)) = getKw k (setup.map raw) := by
    intro k hk
    simp only [List.map_cons, List.map_nil, List.mem_cons, List.not_mem_nil, or_false, not_or] at hk
    rw [extra_lookup, if_neg (fun e => hk.2.2 e.1), if_neg (fun e => hk.2.1 e.1), if_neg (fun e => hk.1 e.1)]
  have lab : ∀ k ∈ changeToSecondValue, k ∉ ["measurement_type", "title", "rotation angle (rad)"].map String.toList := by decide +kernel
  obtain ⟨e1, a1, a2, a3⟩ := update_fold second_step changeToSecondValue (by decide +kernel) (extra f (setup.map raw)) (by
    intro k hk v hv
    rw [base k (lab k hk), raw_lookup s2.2] at hv
    obtain ⟨e, _, _, rfl⟩ := hv
    exact ⟨_, _, rfl⟩)
  have good : ∀ e ∈ e1, firstVal e = .ok (e.1, fst e.2) := by
    intro e he
    have : ∃ a o t, e.2 = .vals (some a) o ∨ e.2 = .str t := by
      rcases a2 e he with h | ⟨v, ⟨a, o, rfl⟩, h⟩
      · rcases extra_mem f _ h with h | ⟨t, h⟩
        · obtain ⟨x, _, rfl⟩ := List.mem_map.1 h
          exact ⟨_, _, [], Or.inl rfl⟩
        · exact ⟨[], none, t, Or.inr h⟩
      · cases o with
        | none => exact ⟨a, none, [], Or.inl h⟩
        | some t => exact ⟨[], none, t, Or.inr h⟩
    obtain ⟨k, v⟩ := e
    obtain ⟨a, o, t, h | h⟩ := this
    · dsimp only at h; subst h; rfl
    · dsimp only at h; subst h; rfl
  have f1 : e1.mapM firstVal = .ok (e1.map fun e => (e.1, fst e.2)) := mapM_ok good
  -- after the choice of a value
  have mid : ∀ k, k ∉ ["measurement_type", "title", "rotation angle (rad)"].map String.toList → ∀ v,
      getKw k (e1.map fun e => (e.1, fst e.2)) = some v ↔ ∃ e ∈ setup, e.1 = k ∧ v = .str (textFor e) := by
    intro k hk v
    rw [getKw_map, a3, base k hk]
    constructor
    · intro hv
      split_ifs at hv with hl
      · simp only [Option.map_map, Option.map_eq_some_iff] at hv
        obtain ⟨w, hw, rfl⟩ := hv
        obtain ⟨e, he, rfl, rfl⟩ := (raw_lookup s2.2 k w).1 hw
        refine ⟨e, he, rfl, ?_⟩
        have hl : e.1 ∈ labelled := hl
        unfold textFor
        rw [if_pos hl]
        cases e.2.2 <;> rfl
      · simp only [Option.map_eq_some_iff] at hv
        obtain ⟨w, hw, rfl⟩ := hv
        obtain ⟨e, he, rfl, rfl⟩ := (raw_lookup s2.2 k w).1 hw
        refine ⟨e, he, rfl, ?_⟩
        have hl : ¬ e.1 ∈ labelled := hl
        unfold textFor
        rw [if_neg hl]
        rfl
    · rintro ⟨e, he, rfl, rfl⟩
      rw [(raw_lookup s2.2 e.1 _).2 ⟨e, he, rfl, rfl⟩]
      unfold textFor
      by_cases hl : e.1 ∈ labelled
      · have hl' : e.1 ∈ changeToSecondValue := hl
        rw [if_pos hl, if_pos hl']
        cases e.2.2 <;> rfl
      · have hl' : ¬ e.1 ∈ changeToSecondValue := hl
        rw [if_neg hl, if_neg hl']
        rfl
  have nrot : "rotation angle (rad)".toList ∉ changeToSecondValue := by decide +kernel
  have midr : getKw "rotation angle (rad)".toList (e1.map fun e => (e.1, fst e.2)) = f.angle.map Val.str := by
    rw [getKw_map, a3, if_neg nrot, extra_lookup]
    cases hf : f.angle with
    | none =>
      have n1 : "rotation angle (rad)".toList ≠ "title".toList := by decide
      have n2 : "rotation angle (rad)".toList ≠ "measurement_type".toList := by decide
      rw [if_neg (by simp), if_neg (fun e => n1 e.1), if_neg (fun e => n2 e.1), rsv _ (by simp)]
      rfl
    | some t =>
      rw [if_pos ⟨rfl, rfl⟩]
      rfl
  have numk : ∀ k, k ∈ convertToNumeric ↔ k ∈ numbers ∨ k = "rotation angle (rad)".toList := by
    intro k
    unfold convertToNumeric numbers
    simp only [List.map_cons, List.map_nil, List.mem_cons, List.not_mem_nil, or_false]
    constructor
    · rintro (e | e | e | e | e | e | e | e | e | e | e | e | e | e | e | e | e | e | e) <;> subst e <;> simp
    · rintro ((e | e | e | e | e | e | e | e | e | e | e | e | e | e | e | e | e | e) | e) <;> subst e <;> simp
  have numn : ∀ k ∈ numbers, k ∉ ["measurement_type", "title", "rotation angle (rad)"].map String.toList := by decide +kernel
  obtain ⟨e2, b1, _, b3⟩ := update_fold (numeric_step toFloat) convertToNumeric (by decide +kernel) (e1.map fun e => (e.1, fst e.2)) (by
    intro k hk v hv
    rcases (numk k).1 hk with hk | rfl
    · obtain ⟨e, he, rfl, rfl⟩ := (mid k (numn k hk) v).1 hv
      obtain ⟨q, hq⟩ := h.readable e he hk
      exact ⟨_, q, rfl, hq⟩
    · rw [midr, Option.map_eq_some_iff] at hv
      obtain ⟨t, ht, rfl⟩ := hv
      obtain ⟨q, hq⟩ := h.angle t ht
      exact ⟨t, q, rfl, hq⟩)
  have fin : ∀ k, k ∉ ["measurement_type", "title", "rotation angle (rad)"].map String.toList → ∀ v,
      getKw k e2 = some v ↔ Setting toFloat setup k v := by
    intro k hk v
    rw [b3]
    have hk3 : k ≠ "rotation angle (rad)".toList := fun e => hk (by rw [e]; simp)
    by_cases hn : k ∈ numbers
    · rw [if_pos ((numk k).2 (Or.inl hn)), Option.map_eq_some_iff]
      unfold Setting
      constructor
      · rintro ⟨w, hw, rfl⟩
        obtain ⟨e, he, rfl, rfl⟩ := (mid k hk w).1 hw
        obtain ⟨q, hq⟩ := h.readable e he hn
        exact ⟨e, he, rfl, by rw [if_pos hn]; exact ⟨q, hq, by simp [flt, hq]⟩⟩
      · rintro ⟨e, he, rfl, hv⟩
        rw [if_pos hn] at hv
        obtain ⟨q, hq, rfl⟩ := hv
        exact ⟨_, (mid e.1 hk _).2 ⟨e, he, rfl, rfl⟩, by simp [flt, hq]⟩
    · rw [if_neg (fun e => ((numk k).1 e).elim hn hk3), mid k hk]
      unfold Setting
      simp only [if_neg hn]
  have finr : ∀ v, getKw "rotation angle (rad)".toList e2 = some v ↔ ∃ t q, f.angle = some t ∧ toFloat t = .ok q ∧ v = .num q := by
    intro v
    rw [b3, if_pos ((numk _).2 (Or.inr rfl)), midr, Option.map_map, Option.map_eq_some_iff]
    constructor
    · rintro ⟨t, ht, rfl⟩
      obtain ⟨q, hq⟩ := h.angle t ht
      exact ⟨t, q, ht, hq, by simp [flt, hq]⟩
    · rintro ⟨t, q, ht, hq, rfl⟩
      exact ⟨t, ht, by simp [flt, hq]⟩
  have noneOf : ∀ n ∈ ["Grating (gr/mm)", "ND Filter (%)"].map String.toList, getKw n e2 = none := by
    intro n hn
    have h1 : n ∉ ["measurement_type", "title", "rotation angle (rad)"].map String.toList := by
      revert n
      decide +kernel
    cases hv : getKw n e2 with
    | none => rfl
    | some v =>
      obtain ⟨e, he, h2, _⟩ := (fin n h1 v).1 hv
      obtain ⟨m, hm, rfl⟩ := List.mem_map.1 hn
      exact absurd (List.mem_map.2 ⟨e, he, h2⟩) (h.names m (List.mem_cons_of_mem _ (List.mem_cons_of_mem _ (List.mem_cons_of_mem _ hm))))
  have x1 : "ND Filter (%)".toList ≠ "Grating (gr/mm)".toList := by decide
  have x2 : "ND Filter (%)".toList ≠ "Grating".toList := by decide
  have x3 : "Grating (gr/mm)".toList ≠ "ND Filter".toList := by decide
  have x4 : "ND Filter".toList ≠ "Grating (gr/mm)".toList := by decide
  have x5 : "ND Filter".toList ≠ "Grating".toList := by decide
  have x6 : "rotation angle (rad)".toList ≠ "Grating".toList := by decide
  have x7 : "rotation angle (rad)".toList ≠ "ND Filter".toList := by decide
  have x8 : "rotation angle (rad)".toList ≠ "Grating (gr/mm)".toList := by decide
  have x9 : "rotation angle (rad)".toList ≠ "ND Filter (%)".toList := by decide
  have g1 := getKw_rename "Grating".toList "Grating (gr/mm)".toList e2 (noneOf _ (by simp))
  have g2 := getKw_rename "ND Filter".toList "ND Filter (%)".toList _ (by
    rw [g1, if_neg x1, if_neg x2]
    exact noneOf _ (by simp))
  refine ⟨⟨date.map (fun e => (e.1, Val.str e.2.1)), rename "ND Filter".toList "ND Filter (%)".toList
    (rename "Grating".toList "Grating (gr/mm)".toList e2), info.map (fun e => (e.1, Val.str e.2.1))⟩, ?_, rfl, rfl, ?_, ?_, ?_, ?_⟩
  · unfold getOriginal
    rw [d1, s1, i1]
    simp only [part, getValues_ok d2, getValues_ok s2, getValues_ok i2, bind, Except.bind]
    unfold cleanUp
    simp only [bind, Except.bind, a1, f1, firstVal_raw, b1]
  · intro k hk v
    simp only [special, List.map_cons, List.map_nil, List.mem_cons, List.not_mem_nil, or_false, not_or] at hk
    obtain ⟨k1, k2, k3, k4, k5, k6, k7⟩ := hk
    show getKw k _ = _ ↔ _
    rw [g2, if_neg k5, if_neg k7, g1, if_neg k4, if_neg k6]
    exact fin k (by simp only [List.map_cons, List.map_nil, List.mem_cons, List.not_mem_nil, or_false, not_or]; exact ⟨k1, k2, k3⟩) v
  · intro v
    show getKw _ _ = _ ↔ _
    rw [g2, if_neg x1.symm, if_neg x3, g1, if_pos rfl]
    exact fin _ (by decide +kernel) v
  · intro v
    show getKw _ _ = _ ↔ _
    rw [g2, if_pos rfl, g1, if_neg x4, if_neg x5]
    exact fin _ (by decide +kernel) v
  · intro v
    show getKw _ _ = _ ↔ _
    rw [g2, if_neg x9, if_neg x7, g1, if_neg x8, if_neg x6]
    exact finr v

theorem splitChar_two {c : Char} {a b : Text} (ha : c ∉ a) (hb : c ∉ b) : splitChar c (a ++ c :: b) = [a, b] := by
  rw [splitChar_append ha, splitChar_none hb]

theorem str_lookup {es : List Entry} (hn : (es.map Prod.fst).Nodup) (k : Text) (v : Val) :
    getKw k (es.map fun e => (e.1, Val.str e.2.1)) = some v ↔ ∃ t o, (k, t, o) ∈ es ∧ v = .str t := by
  have := getKw_map (f := fst) k (es.map raw)
  rw [List.map_map] at this
  have e : (es.map fun e => (e.1, Val.str e.2.1)) = es.map ((fun e : Text × Val => (e.1, fst e.2)) ∘ raw) := rfl
  rw [e, this, Option.map_eq_some_iff]
  constructor
  · rintro ⟨w, hw, rfl⟩
    obtain ⟨e, he, rfl, rfl⟩ := (raw_lookup hn k w).1 hw
    exact ⟨e.2.1, e.2.2, he, rfl⟩
  · rintro ⟨t, o, ht, rfl⟩
    exact ⟨_, (raw_lookup hn k _).2 ⟨_, ht, rfl, rfl⟩, rfl⟩

theorem mem_present {p path : Text} {x : MVal} {o : Option Val} : (p, x) ∈ present path o ↔ p = path ∧ ∃ v, o = some v ∧ x = .val v := by
  cases o <;> simp [present]

theorem setting_unique {toFloat : Text → Py ℚ} {es : List Entry} (hn : (es.map Prod.fst).Nodup) {k : Text} {v w : Val}
    (hv : Setting toFloat es k v) (hw : Setting toFloat es k w) : v = w := by
  obtain ⟨e, he, h1, h2⟩ := hv
  obtain ⟨e', he', h1', h2'⟩ := hw
  have : e = e' := List.inj_on_of_nodup_map hn he he' (h1.trans h1'.symm)
  subst this
  split_ifs at h2 h2'
  · obtain ⟨q, hq, rfl⟩ := h2
    obtain ⟨q', hq', rfl⟩ := h2'
    rw [hq] at hq'
    cases hq'
    rfl
  · rw [h2, h2']

theorem setting_num {toFloat : Text → Py ℚ} {es : List Entry} {k : Text} {v : Val} (hk : k ∈ numbers)
    (h : Setting toFloat es k v) : ∃ q, v = .num q := by
  obtain ⟨e, _, _, h⟩ := h
  rw [if_pos hk] at h
  obtain ⟨q, _, h⟩ := h
  exact ⟨q, h⟩

theorem dateTime_mem {date : List Entry} (hn : (date.map Prod.fst).Nodup)
    (ha : ∀ e ∈ date, e.1 = "Acquired".toList → ∃ d t, e.2.1 = d ++ ' ' :: t ∧ ' ' ∉ d ∧ ' ' ∉ t) :
    ∃ dt, dateTime (date.map fun e => (e.1, Val.str e.2.1)) = .ok dt ∧ ∀ p x, (p, x) ∈ dt ↔ ∃ d t o, ("Acquired".toList, d ++ ' ' :: t, o) ∈ date ∧ ' ' ∉ d ∧ ' ' ∉ t ∧
    (p = "General.date".toList ∧ x = .val (.str d) ∨ p = "General.time".toList ∧ x = .val (.str t)) := by
  unfold dateTime
  cases hv : getKw "Acquired".toList (date.map fun e => (e.1, Val.str e.2.1)) with
  | none =>
    refine ⟨[], rfl, fun p x => ⟨fun e => (by cases e), ?_⟩⟩
    rintro ⟨d, t, o', hm, _⟩
    have := (str_lookup hn "Acquired".toList (.str (d ++ ' ' :: t))).2 ⟨_, _, hm, rfl⟩
    rw [hv] at this
    cases this
  | some v =>
    have hv' := hv
    rw [str_lookup hn] at hv'
    obtain ⟨t, o', hm, rfl⟩ := hv'
    obtain ⟨d, t', ht, hd, ht'⟩ := ha _ hm rfl
    dsimp only at ht
    subst ht
    simp only [splitChar_two hd ht']
    refine ⟨_, rfl, fun p x => ?_⟩
    constructor
    · intro e
      simp only [List.mem_cons, List.not_mem_nil, or_false, Prod.mk.injEq] at e
      exact ⟨d, t', o', hm, hd, ht', e⟩
    · rintro ⟨d'', t'', o'', hm', hd', ht'', e⟩
      have : ("Acquired".toList, d ++ ' ' :: t', o') = ("Acquired".toList, d'' ++ ' ' :: t'', o'') := List.inj_on_of_nodup_map hn hm hm' rfl
      injection this with _ this
      injection this with this _
      have sp := splitChar_two hd ht'
      rw [this, splitChar_two hd' ht''] at sp
      injection sp with e5 e6
      injection e6 with e6
      subst e5 e6
      simp only [List.mem_cons, List.not_mem_nil, or_false, Prod.mk.injEq]
      exact e

theorem angleWindows_mem {toFloat : Text → Py ℚ} {setup : List Entry} {angle : Option Text} {D : List (Text × Val)} (hn : (setup.map Prod.fst).Nodup)
    (hw : ∀ v, getKw "Windows".toList D = some v ↔ Setting toFloat setup "Windows".toList v)
    (hk4 : ∀ v, getKw "rotation angle (rad)".toList D = some v ↔ ∃ t q, angle = some t ∧ toFloat t = .ok q ∧ v = .num q) :
    ∃ aw, angleWindows D = .ok aw ∧ ∀ p x, (p, x) ∈ aw ↔
    (∃ v, Setting toFloat setup "Windows".toList v ∧ (p = "Detector.glued_spectrum".toList ∧ x = .bool true ∨ p = "Detector.glued_spectrum_windows".toList ∧ x = .val v)) ∨
    ((∀ v, ¬ Setting toFloat setup "Windows".toList v) ∧ p = "Detector.glued_spectrum".toList ∧ x = .bool false) ∨
    ∃ t q, angle = some t ∧ toFloat t = .ok q ∧ (p = "Spectral_image.rotation_angle".toList ∧ x = .degrees q ∨
      p = "Spectral_image.rotation_angle_units".toList ∧ x = .val (.str "°".toList)) := by
  unfold angleWindows
  have hW : ∀ p x, (p, x) ∈ windows D ↔
      (∃ v, Setting toFloat setup "Windows".toList v ∧ (p = "Detector.glued_spectrum".toList ∧ x = .bool true ∨ p = "Detector.glued_spectrum_windows".toList ∧ x = .val v)) ∨
      ((∀ v, ¬ Setting toFloat setup "Windows".toList v) ∧ p = "Detector.glued_spectrum".toList ∧ x = .bool false) := by
    intro p x
    unfold windows
    cases hv : getKw "Windows".toList D with
    | none =>
      have no : ∀ v, ¬ Setting toFloat setup "Windows".toList v := by
        intro v e
        rw [(hw v).2 e] at hv
        cases hv
      simp only [List.mem_cons, List.not_mem_nil, or_false, Prod.mk.injEq]
      constructor
      · exact fun e => Or.inr ⟨no, e⟩
      · rintro (⟨v, hv, _⟩ | ⟨_, e⟩)
        · exact absurd hv (no v)
        · exact e
    | some v =>
      have yes := (hw v).1 hv
      simp only [List.mem_cons, List.not_mem_nil, or_false, Prod.mk.injEq]
      constructor
      · exact fun e => Or.inl ⟨v, yes, e⟩
      · rintro (⟨v', hv', e⟩ | ⟨no, _⟩)
        · rw [setting_unique hn yes hv']
          exact e
        · exact absurd yes (no v)
  cases hr : getKw "rotation angle (rad)".toList D with
  | none =>
    refine ⟨_, rfl, fun p x => (hW p x).trans ?_⟩
    have no : ¬ ∃ t q, angle = some t ∧ toFloat t = .ok q ∧ (p = "Spectral_image.rotation_angle".toList ∧ x = .degrees q ∨
        p = "Spectral_image.rotation_angle_units".toList ∧ x = .val (.str "°".toList)) := by
      rintro ⟨t, q, ht, hq, _⟩
      rw [(hk4 (.num q)).2 ⟨t, q, ht, hq, rfl⟩] at hr
      cases hr
    rw [← or_assoc, or_iff_left no]
  | some v =>
    obtain ⟨t, q, ht, hq, rfl⟩ := (hk4 v).1 hr
    refine ⟨_, rfl, fun p x => ?_⟩
    rw [List.mem_cons, List.mem_cons, hW p x]
    have : (∃ t q, angle = some t ∧ toFloat t = .ok q ∧ (p = "Spectral_image.rotation_angle".toList ∧ x = .degrees q ∨
        p = "Spectral_image.rotation_angle_units".toList ∧ x = .val (.str "°".toList))) ↔
        ((p, x) = ("Spectral_image.rotation_angle".toList, .degrees q) ∨ (p, x) = ("Spectral_image.rotation_angle_units".toList, .val (.str "°".toList))) := by
      simp only [Prod.mk.injEq]
      constructor
      · rintro ⟨t', q', ht', hq', e⟩
        rw [ht] at ht'
        injection ht' with ht'
        rw [← ht', hq] at hq'
        injection hq' with hq'
        subst hq'
        exact e
      · exact fun e => ⟨t, q, ht, hq, e⟩
    rw [this]
    have shuffle : ∀ a b c d : Prop, (a ∨ b ∨ (c ∨ d)) ↔ (c ∨ d ∨ (a ∨ b)) := by
      intro a b c d
      tauto
    exact shuffle _ _ _ _

theorem integration_mem {toFloat : Text → Py ℚ} {setup : List Entry} {D : List (Text × Val)} (hn : (setup.map Prod.fst).Nodup)
    (h1 : ∀ v, getKw "Accumulations".toList D = some v ↔ Setting toFloat setup "Accumulations".toList v)
    (h2 : ∀ v, getKw "Acq. time (s)".toList D = some v ↔ Setting toFloat setup "Acq. time (s)".toList v) :
    ∃ it, integration D = .ok it ∧ ∀ p x, (p, x) ∈ it ↔ ∃ a b, Setting toFloat setup "Accumulations".toList (.num a) ∧
    Setting toFloat setup "Acq. time (s)".toList (.num b) ∧ p = "Detector.integration_time".toList ∧ x = .val (.num (a * b)) := by
  unfold integration
  cases hv : getKw "Accumulations".toList D with
  | none =>
    refine ⟨[], rfl, fun p x => ⟨fun e => (by cases e), ?_⟩⟩
    rintro ⟨a, b, ha, _⟩
    rw [(h1 _).2 ha] at hv
    cases hv
  | some v =>
    obtain ⟨a, rfl⟩ := setting_num (by decide +kernel) ((h1 v).1 hv)
    cases hw : getKw "Acq. time (s)".toList D with
    | none =>
      refine ⟨[], rfl, fun p x => ⟨fun e => (by cases e), ?_⟩⟩
      rintro ⟨a, b, _, hb, _⟩
      rw [(h2 _).2 hb] at hw
      cases hw
    | some w =>
      obtain ⟨b, rfl⟩ := setting_num (by decide +kernel) ((h2 w).1 hw)
      refine ⟨_, rfl, fun p x => ?_⟩
      simp only [List.mem_cons, List.not_mem_nil, or_false, Prod.mk.injEq]
      constructor
      · exact fun e => ⟨a, b, (h1 _).1 hv, (h2 _).1 hw, e⟩
      · rintro ⟨a', b', ha', hb', e⟩
        have e1 := setting_unique hn ((h1 _).1 hv) ha'
        have e2 := setting_unique hn ((h2 _).1 hw) hb'
        injection e1 with e1
        injection e2 with e2
        rw [e1, e2]
        exact e

theorem mapping_mem {toFloat : Text → Py ℚ} {setup : List Entry} {D : List (Text × Val)}
    (hk1 : ∀ k, k ∉ special → ∀ v, getKw k D = some v ↔ Setting toFloat setup k v)
    (hk2 : ∀ v, getKw "Grating (gr/mm)".toList D = some v ↔ Setting toFloat setup "Grating".toList v) :
    ∀ p x, (p, x) ∈ mapping.flatMap (fun e => present e.1 (getKw e.2 D)) ↔
    ∃ key v, (p, key) ∈ table ∧ Setting toFloat setup key v ∧ x = .val v := by
  have t1 : mapping = table.map fun e => (e.1, if e.2 = "Grating".toList then "Grating (gr/mm)".toList else e.2) := by decide +kernel
  have t2 : ∀ e ∈ table, e.2 ≠ "Grating".toList → e.2 ∉ special := by decide +kernel
  intro p x
  rw [t1]
  simp only [List.mem_flatMap, List.mem_map, mem_present]
  have key : ∀ e ∈ table, ∀ v, getKw (if e.2 = "Grating".toList then "Grating (gr/mm)".toList else e.2) D = some v ↔ Setting toFloat setup e.2 v := by
    intro e he v
    by_cases hg : e.2 = "Grating".toList
    · rw [if_pos hg, hk2, hg]
    · rw [if_neg hg, hk1 _ (t2 e he hg)]
  constructor
  · rintro ⟨_, ⟨e, he, rfl⟩, rfl, v, hv, rfl⟩
    exact ⟨e.2, v, he, (key e he v).1 hv, rfl⟩
  · rintro ⟨k, v, hm, hv, rfl⟩
    exact ⟨_, ⟨(p, k), hm, rfl⟩, rfl, v, (key _ hm v).2 hv, rfl⟩

/-- C105, partial: see the negations below for what is missing. A file with date, settings (among them the hole
and the filter), information on the file, a title and an element for the intensities is read, and the metadata are
exactly these: every setting at its place, as a number where it is one and with the number behind a label; the
integration time is the number of accumulations times the time of one; the filter and the hole are divided by a
hundred; the time of acquisition is split into date and time; the angle of the scan is in degrees. -/
theorem C105_setup_partial {nums : Text → List ℚ} {toFloat : Text → Py ℚ} {f : File} {ws : List ℚ} {u : Text}
    {xs ys : List ℚ} {I : Nat → Nat → Nat → ℚ} {date setup info : List Entry} {title kind units : Text} (uniform : Bool)
    (h : Scan nums f ws u xs ys I) (hs : Setup toFloat f date setup info title kind units) :
    ∃ r, read nums toFloat false uniform f = .ok r ∧
      ∀ p x, (p, x) ∈ r.metadata ↔ Meta toFloat f date setup info title kind units p x := by
  obtain ⟨o, ho, hod, hoi, hk1, hk2, hk3, hk4⟩ := cleaned hs
  obtain ⟨cd, d1, d2⟩ := hs.hasDate
  obtain ⟨cs, s1, s2⟩ := hs.hasSetup
  obtain ⟨ci, i1, i2⟩ := hs.hasInfo
  obtain ⟨n, m, hk⟩ := signalUnits_ok h.units
  obtain ⟨st, s, ox, oy, g1, g2, g3, g4, g5, g6, g7, g8, g9, g10, g11, g12, g13, g14, g15, g16⟩ := axes_fold uniform h hk
  obtain ⟨l, b, c1, c2, c3⟩ := signalCal_two uniform h.two
  rw [c1] at g6
  obtain ⟨data, e1, e2, e3⟩ := rows_data h (st := st) (b := b) g6 (g9.trans g15) (g10.trans g16)
    (fun e => g11 (g9 ▸ e)) (fun e => g12 (g10 ▸ e))
  have ha : ∃ axes, sortAxes st = .ok axes := by
    unfold sortAxes
    rw [g2]
    simp only [g7, g8, g9, g10]
    cases ox <;> cases oy <;> exact ⟨_, rfl⟩
  obtain ⟨axes, ha⟩ := ha
  obtain ⟨cq, q1, q2, q3⟩ := hs.signal
  obtain ⟨w1, w2⟩ := quantity_fold g1 q1 q2 q3
  have look : ∀ k, k ∉ special → getKw k o.setup = none ∨ ∃ v, getKw k o.setup = some v ∧ Setting toFloat setup k v := by
    intro k hk
    cases hv : getKw k o.setup with
    | none => exact Or.inl rfl
    | some v => exact Or.inr ⟨v, rfl, (hk1 k hk v).1 hv⟩
  -- the hole and the filter
  obtain ⟨od, hod1, hod2⟩ : ∃ q, getKw "ND Filter (%)".toList o.setup = some (.num q) ∧ Setting toFloat setup "ND Filter".toList (.num q) := by
    obtain ⟨e, he, hf⟩ := List.mem_map.1 hs.filter
    have hn : "ND Filter".toList ∈ numbers := by decide +kernel
    obtain ⟨q, hq⟩ := hs.readable e he (hf ▸ hn)
    have : Setting toFloat setup "ND Filter".toList (.num q) := ⟨e, he, hf, by rw [if_pos hn]; exact ⟨q, hq, rfl⟩⟩
    exact ⟨q, (hk3 _).2 this, this⟩
  obtain ⟨sl, hsl1, hsl2⟩ : ∃ q, getKw "Hole".toList o.setup = some (.num q) ∧ Setting toFloat setup "Hole".toList (.num q) := by
    obtain ⟨e, he, hf⟩ := List.mem_map.1 hs.hole
    have hn : "Hole".toList ∈ numbers := by decide +kernel
    obtain ⟨q, hq⟩ := hs.readable e he (hf ▸ hn)
    have : Setting toFloat setup "Hole".toList (.num q) := ⟨e, he, hf, by rw [if_pos hn]; exact ⟨q, hq, rfl⟩⟩
    exact ⟨q, (hk1 _ (by decide +kernel) _).2 this, this⟩
  obtain ⟨dt, hdt, hdt2⟩ := dateTime_mem d2.2 hs.acquired
  rw [← hod] at hdt
  obtain ⟨aw, haw, haw2⟩ := angleWindows_mem s2.2 (hk1 _ (by decide +kernel)) hk4
  obtain ⟨it, hit, hit2⟩ := integration_mem s2.2 (hk1 _ (by decide +kernel)) (hk1 _ (by decide +kernel))
  have hmap := mapping_mem hk1 hk2
  have hmd : ∃ md, mapMetadata f st o = .ok md ∧ ∀ p x, (p, x) ∈ md ↔ Meta toFloat f date setup info title kind units p x := by
    unfold mapMetadata
    rw [hs.hasTitle]
    simp only [w1, w2, hdt, haw, hit, hod1, hsl1, hundredth, bind, Except.bind]
    refine ⟨_, rfl, fun p x => ?_⟩
    simp only [List.mem_append, List.mem_cons, List.not_mem_nil, or_false, hdt2, haw2, hit2, hmap, mem_present, hoi, str_lookup i2.2, Prod.mk.injEq]
    constructor
    · rintro (((((((⟨rfl, _, ⟨t, o', hm, rfl⟩, rfl⟩ | (⟨rfl, rfl⟩ | ⟨rfl, _, ⟨t, o', hm, rfl⟩, rfl⟩)) |
        ⟨d, t, o', hm, hd, ht, ⟨rfl, rfl⟩ | ⟨rfl, rfl⟩⟩) | ⟨rfl, rfl⟩) | ⟨k, v, hm, hv, rfl⟩) |
        (⟨v, hv, ⟨rfl, rfl⟩ | ⟨rfl, rfl⟩⟩ | ⟨no, rfl, rfl⟩ | ⟨t, q, ht, hq, ⟨rfl, rfl⟩ | ⟨rfl, rfl⟩⟩)) |
        ⟨a, b, ha, hb, rfl, rfl⟩) | ⟨rfl, rfl⟩ | ⟨rfl, rfl⟩ | ⟨rfl, rfl⟩)
      · exact .sample hm
      · exact .title
      · exact .notes hm
      · exact .date hm hd ht
      · exact .time hm hd ht
      · refine .quantity ?_ ?_
        · by_cases e : kind = "Intens".toList
          · exact Or.inr ⟨e, if_pos e⟩
          · exact Or.inl ⟨if_neg e, e⟩
        · by_cases e : units = "Cnt/sec".toList
          · exact Or.inr (Or.inr ⟨e, if_pos e⟩)
          · by_cases e' : units = "Cnt".toList
            · exact Or.inr (Or.inl ⟨e', by rw [if_neg e, if_pos e']⟩)
            · exact Or.inl ⟨by rw [if_neg e, if_neg e'], e', e⟩
      · exact .entry hm hv
      · exact .glued hv
      · exact .windows hv
      · exact .unglued no
      · exact .angle ht hq
      · exact .angleUnits ht
      · exact .integration ha hb
      · exact .density hod2
      · exact .slit hsl2
      · exact .pinhole hsl2
    · intro hm
      cases hm with
      | entry hm hv => exact Or.inl (Or.inl (Or.inl (Or.inr ⟨_, _, hm, hv, rfl⟩)))
      | density hv =>
        have := setting_unique s2.2 hv hod2
        injection this with this
        subst this
        exact Or.inr (Or.inl ⟨rfl, rfl⟩)
      | slit hv =>
        have := setting_unique s2.2 hv hsl2
        injection this with this
        subst this
        exact Or.inr (Or.inr (Or.inl ⟨rfl, rfl⟩))
      | pinhole hv =>
        have := setting_unique s2.2 hv hsl2
        injection this with this
        subst this
        exact Or.inr (Or.inr (Or.inr ⟨rfl, rfl⟩))
      | integration ha hb => exact Or.inl (Or.inr ⟨_, _, ha, hb, rfl, rfl⟩)
      | glued hv => exact Or.inl (Or.inl (Or.inr (Or.inl ⟨_, hv, Or.inl ⟨rfl, rfl⟩⟩)))
      | windows hv => exact Or.inl (Or.inl (Or.inr (Or.inl ⟨_, hv, Or.inr ⟨rfl, rfl⟩⟩)))
      | unglued no => exact Or.inl (Or.inl (Or.inr (Or.inr (Or.inl ⟨no, rfl, rfl⟩))))
      | angle ht hq => exact Or.inl (Or.inl (Or.inr (Or.inr (Or.inr ⟨_, _, ht, hq, Or.inl ⟨rfl, rfl⟩⟩))))
      | angleUnits ht =>
        obtain ⟨q, hq⟩ := hs.angle _ ht
        exact Or.inl (Or.inl (Or.inr (Or.inr (Or.inr ⟨_, _, ht, hq, Or.inr ⟨rfl, rfl⟩⟩))))
      | title => exact Or.inl (Or.inl (Or.inl (Or.inl (Or.inl (Or.inl (Or.inr (Or.inl ⟨rfl, rfl⟩)))))))
      | notes hm => exact Or.inl (Or.inl (Or.inl (Or.inl (Or.inl (Or.inl (Or.inr (Or.inr ⟨rfl, _, ⟨_, _, hm, rfl⟩, rfl⟩)))))))
      | sample hm => exact Or.inl (Or.inl (Or.inl (Or.inl (Or.inl (Or.inl (Or.inl ⟨rfl, _, ⟨_, _, hm, rfl⟩, rfl⟩))))))
      | date hm hd ht => exact Or.inl (Or.inl (Or.inl (Or.inl (Or.inl (Or.inr ⟨_, _, _, hm, hd, ht, Or.inl ⟨rfl, rfl⟩⟩)))))
      | time hm hd ht => exact Or.inl (Or.inl (Or.inl (Or.inl (Or.inl (Or.inr ⟨_, _, _, hm, hd, ht, Or.inr ⟨rfl, rfl⟩⟩)))))
      | quantity hk hu =>
        refine Or.inl (Or.inl (Or.inl (Or.inl (Or.inr ⟨rfl, ?_⟩))))
        unfold quantityText
        congr 2
        have n1 : "Cnt".toList ≠ "Cnt/sec".toList := by decide
        have ek : ∀ k, (k = kind ∧ kind ≠ "Intens".toList ∨ kind = "Intens".toList ∧ k = "Intensity".toList) →
            k = if kind = "Intens".toList then "Intensity".toList else kind := by
          rintro k (⟨e1, e2⟩ | ⟨e1, e2⟩)
          · rw [if_neg e2, e1]
          · rw [if_pos e1, e2]
        have eu : ∀ u, (u = units ∧ units ≠ "Cnt".toList ∧ units ≠ "Cnt/sec".toList ∨ units = "Cnt".toList ∧ u = "Counts".toList ∨
            units = "Cnt/sec".toList ∧ u = "Counts/s".toList) →
            u = if units = "Cnt/sec".toList then "Counts/s".toList else if units = "Cnt".toList then "Counts".toList else units := by
          rintro u (⟨e1, e2, e3⟩ | ⟨e1, e2⟩ | ⟨e1, e2⟩)
          · rw [if_neg e3, if_neg e2, e1]
          · rw [if_neg (by rw [e1]; exact n1), if_pos e1, e2]
          · rw [if_pos e1, e2]
        rw [← ek _ hk, ← eu _ hu]
  obtain ⟨md, hmd1, hmd2⟩ := hmd
  refine ⟨⟨axes, (if ys.length = 1 then [] else [ys.length]) ++ (if xs.length = 1 then [] else [xs.length]) ++ [ws.length], data, md⟩, ?_, hmd2⟩
  unfold Verif.JobinYvon.read
  simp only [Bool.false_eq_true, if_false, bind, Except.bind, ho, g1, ha, e1, hmd1]

/-! ### Examples -/

/-- Numbers of one digit each. -/
def exNums (t : Text) : List ℚ := t.map fun c => ((c.toNat - 48 : Nat) : ℚ)

/-- A number of one digit. -/
def exFloat : Text → Py ℚ
  | [c] => if c.isDigit then .ok ((c.toNat - 48 : Nat) : ℚ) else .error .valueError
  | _ => .error .valueError

def exLeaf (id text : String) : Leaf := ⟨id.toList, text.toList⟩

def exEntry (name : String) (one two : Option String) : Node :=
  ⟨[], [], exLeaf "0x6D6D616E" name :: (one.toList.map (exLeaf "0x7D6C61DB")) ++ (two.toList.map (exLeaf "0x8736F70"))⟩

/-- The axes: intensities, wavelengths, and positions. -/
def exAxes (ws : String) (xs ys : Option String) : List Node :=
  [⟨"0x0".toList, [], [exLeaf "0x6D707974" "Intens", exLeaf "0x7C696E75" "Cnt"]⟩,
   ⟨"0x1".toList, [], [exLeaf "0x7C696E75" "1/cm", exLeaf "0x7D6CD4DB" ws]⟩] ++
  (xs.toList.map fun x => ⟨"0x2".toList, [], [exLeaf "0x6D707974" "X", exLeaf "0x7C696E75" "um", exLeaf "0x7D6CD4DB" x]⟩) ++
  (ys.toList.map fun y => ⟨"0x3".toList, [], [exLeaf "0x6D707974" "Y", exLeaf "0x7C696E75" "um", exLeaf "0x7D6CD4DB" y]⟩)

def exRow (t : String) : Row := ⟨some (decChars t.length), t.toList⟩

/-- A file with the settings that the reader needs, and some more. -/
def exFile (axes : List Node) (rows : List String) (setup : List Node) : File :=
  ⟨some [exEntry "Acquired" (some "2022-01-01 12:00:00") none], some setup, some [exEntry "Remark" (some "a") none],
   some "spectrum".toList, none, some "1".toList, axes, rows.map exRow⟩

def exSetup : List Node := [exEntry "Hole" (some "5") none, exEntry "ND Filter" (some "x") (some "7"),
  exEntry "Accumulations" (some "2") none, exEntry "Acq. time (s)" (some "3") none]

/-- A map of two rows and two columns with two wavelengths in descending order. -/
def exMap : File := exFile (exAxes "94" (some "12") (some "37")) ["01", "23", "45", "67"] exSetup

theorem exMap_scan : Scan exNums exMap [9, 4] "1/cm".toList [1, 2] [3, 7] (fun iy ix k => 4 * iy + 2 * ix + k) where
  signal := ⟨_, _, rfl, rfl, by decide +kernel, rfl⟩
  units := by decide
  two := le_refl _
  x := ⟨by decide, Or.inr ⟨_, _, rfl, rfl, by decide +kernel⟩⟩
  y := ⟨by decide, Or.inr ⟨_, _, rfl, rfl, by decide +kernel⟩⟩
  rows := rfl
  size := by decide +kernel
  row := by
    intro iy hiy ix hix
    have : ∀ iy : Nat, iy < 2 → ∀ ix : Nat, ix < 2 → ∃ r ∈ (exMap.rows[iy * 2 + ix]?).toList,
        exNums r.text = (List.range 2).map fun (k : Nat) => ((4 * (iy : ℚ) + 2 * (ix : ℚ) + (k : ℚ)) : ℚ) := by
      decide +kernel
    obtain ⟨r, h1, h2⟩ := this iy hiy ix hix
    exact ⟨r, by simpa using h1, h2⟩

theorem exMap_setup : Setup exFloat exMap [("Acquired".toList, "2022-01-01 12:00:00".toList, none)]
    [("Hole".toList, "5".toList, none), ("ND Filter".toList, "x".toList, some "7".toList), ("Accumulations".toList, "2".toList, none),
     ("Acq. time (s)".toList, "3".toList, none)] [("Remark".toList, "a".toList, none)] "spectrum".toList "Intens".toList "Cnt".toList where
  hasDate := ⟨_, rfl, .cons ⟨rfl, rfl, rfl⟩ .nil, by decide +kernel⟩
  hasSetup := ⟨_, rfl, .cons ⟨rfl, rfl, rfl⟩ (.cons ⟨rfl, rfl, rfl⟩ (.cons ⟨rfl, rfl, rfl⟩ (.cons ⟨rfl, rfl, rfl⟩ .nil))), by decide +kernel⟩
  hasInfo := ⟨_, rfl, .cons ⟨rfl, rfl, rfl⟩ .nil, by decide +kernel⟩
  hasTitle := rfl
  signal := ⟨_, rfl, rfl, rfl⟩
  readable := by
    intro e he _
    simp only [List.mem_cons, List.not_mem_nil, or_false] at he
    rcases he with rfl | rfl | rfl | rfl
    · exact ⟨5, by decide +kernel⟩
    · exact ⟨7, by decide +kernel⟩
    · exact ⟨2, by decide +kernel⟩
    · exact ⟨3, by decide +kernel⟩
  angle := by
    intro t ht
    have : t = "1".toList := by
      simp only [exMap, exFile] at ht
      exact (Option.some.inj ht).symm
    subst this
    exact ⟨1, by decide +kernel⟩
  names := by decide +kernel
  hole := by decide +kernel
  filter := by decide +kernel
  acquired := by
    intro e he _
    simp only [List.mem_singleton] at he
    subst he
    exact ⟨"2022-01-01".toList, "12:00:00".toList, by decide +kernel, by decide +kernel, by decide +kernel⟩

/-- The hypotheses of C104 and C105 are met by a map. -/
example : ∃ r, read exNums exFloat false false exMap = .ok r ∧ r.shape = [2, 2, 2] ∧
    r.data = [1, 0, 3, 2, 5, 4, 7, 6] ∧ ("Detector.integration_time".toList, MVal.val (.num 6)) ∈ r.metadata := by
  obtain ⟨r, hr, hm⟩ := C105_setup_partial false exMap_scan exMap_setup
  obtain ⟨b, l, ay, ax, s, h1, h2, h3, h4⟩ := C104_scan_partial exMap_scan hr
  refine ⟨r, hr, h1, ?_, ?_⟩
  · have : (read exNums exFloat false false exMap).map (·.data) = .ok [1, 0, 3, 2, 5, 4, 7, 6] := by decide +kernel
    rw [hr] at this
    exact Except.ok.inj this
  · rw [hm]
    have : (6 : ℚ) = 2 * 3 := by norm_num
    rw [this]
    exact .integration
      ⟨("Accumulations".toList, "2".toList, none), by decide +kernel, rfl, by rw [if_pos (by decide +kernel)]; exact ⟨2, by decide +kernel, rfl⟩⟩
      ⟨("Acq. time (s)".toList, "3".toList, none), by decide +kernel, rfl, by rw [if_pos (by decide +kernel)]; exact ⟨3, by decide +kernel, rfl⟩⟩

/-! ### What does not hold -/

/-- A file with a single wavelength cannot be read: whether to reverse the data was never decided. -/
theorem C104_fails_single : read exNums exFloat false false (exFile (exAxes "9" (some "12") none) ["0", "2"] exSetup) = .error .attributeError := rfl

/-- Positions that are not equidistant are not kept: the third position of the axis of this line scan, 1, 2, 5, is at 3. -/
theorem C104_fails_uneven : ∃ r a, read exNums exFloat false false (exFile (exAxes "49" (some "125") none) ["01", "23", "45"] exSetup) = .ok r ∧
    r.axes.head? = some (.nav a, 0) ∧ exNums "125".toList = [1, 2, 5] ∧ a.offset + 2 * a.scale = 3 := by
  refine ⟨_, _, rfl, rfl, by decide +kernel, ?_⟩
  show (((('1'.toNat - 48 : Nat) : ℚ)) + 2 * ((('2'.toNat - 48 : Nat) : ℚ) - (('1'.toNat - 48 : Nat) : ℚ))) = 3
  decide +kernel

/-- Rows without a navigation axis, such as a series without positions: the data have two dimensions but one axis. -/
theorem C104_fails_axes : ∃ r, read exNums exFloat false false (exFile (exAxes "49" none none) ["01", "23"] exSetup) = .ok r ∧
    r.shape = [2, 2] ∧ r.axes.length = 1 := ⟨_, rfl, rfl, rfl⟩

/-- A row cut down to one number is not noticed: the number fills the row. -/
theorem C104_fails_short : ∃ r, read exNums exFloat false false
      { exFile (exAxes "49" (some "12") none) [] exSetup with rows := [exRow "01", ⟨none, "8".toList⟩] } = .ok r ∧
    r.data = [0, 1, 8, 8] := ⟨_, rfl, by decide +kernel⟩

/-- A third navigation axis, as of a stack of line scans in depth, makes the file unreadable. -/
theorem C104_fails_depth : read exNums exFloat false false
    (exFile (exAxes "49" (some "12") none ++ [⟨"0x4".toList, [], [exLeaf "0x6D707974" "Z", exLeaf "0x7D6CD4DB" "12"]⟩])
      ["01", "23", "45", "67"] exSetup) = .error .valueError := rfl

/-- A file without the hole among its settings cannot be read at all. -/
theorem C105_fails_hole : read exNums exFloat false false (exFile (exAxes "49" none none) ["01"]
    [exEntry "ND Filter" (some "x") (some "7")]) = .error .typeError := rfl

/-- A file without the filter among its settings cannot be read at all. -/
theorem C105_fails_filter : read exNums exFloat false false (exFile (exAxes "49" none none) ["01"]
    [exEntry "Hole" (some "5") none]) = .error .typeError := rfl

/-- An entry without a name replaces the entry before it. -/
theorem C105_fails_unnamed : ∃ r, read exNums exFloat false false (exFile (exAxes "49" none none) ["01"]
      (exEntry "ND Filter" (some "x") (some "7") :: exEntry "Hole" (some "5") none :: [⟨[], [], [exLeaf "0x7D6C61DB" "8"]⟩])) = .ok r ∧
    ("Spectrometer.pinhole".toList, MVal.val (.num (8 / 100))) ∈ r.metadata := by
  refine ⟨_, rfl, ?_⟩
  decide +kernel

/-- A setting that should be a number but has no value makes the file unreadable. -/
theorem C105_fails_empty : read exNums exFloat false false (exFile (exAxes "49" none none) ["01"]
    (exEntry "Binning" none none :: exSetup)) = .error .typeError := rfl

end Verif.Props.JobinYvon
