import Verif.Lemmas.HspyFile
/-! Property C129: a signal survives writing to and reading from an hspy or zspy file. -/
namespace Verif.Props.HspyFile
open Verif Verif.HierDict Verif.HspyFile Verif.HierDictSpec Verif.HspyFileSpec

/-- A signal of the specification as the model's writer receives it. -/
def toSignal (s : Given) : Signal :=
  { package := [("package".toList, s.package), ("package_version".toList, s.packageVersion)]
    axes := s.axes, metadata := s.metadata, originalMetadata := s.originalMetadata
    learningResults := s.learningResults, attributes := s.attributes, models := s.models
    data := s.data }

/-- What the model's reader returns in the terms of the specification. -/
def toReturned (e : Exp) : Returned :=
  { package := e.package, packageVersion := e.packageVersion, axes := e.axes,
    metadata := e.metadata, originalMetadata := e.originalMetadata, attributes := e.attributes,
    models := e.models, data := e.data }

theorem sameAttributes (lazy : Bool) (lr lr' att att' : HspyFileSpec.Dict)
    (hnd : (att.map Prod.fst).Nodup) (h : SameDict att att') (hl : SameDict lr lr') :
    SameAttributes lazy lr att
      (putKey nLearning (.dict lr') (putKey nLazy (.scalar (.bool lazy)) att')) := by
  have hnd' : (att'.map Prod.fst).Nodup := (sameDict_keys h).nodup_iff.2 hnd
  refine ⟨nodup_putKey _ _ _ (nodup_putKey _ _ _ hnd'), ?_, ⟨lr', mem_putKey _ _ _, hl⟩, ?_, ?_⟩
  · apply mem_of_lookup
    rw [lookup_putKey_ne _ _ _ (by decide)]
    exact lookup_putKey_same _ _ _
  · intro k v hm h1 h2
    obtain ⟨v', hv', hs⟩ := sameDict_mem h hm
    refine ⟨v', mem_of_lookup _ _ _ ?_, hs⟩
    have h1' : k ≠ nLazy := h1
    have h2' : k ≠ nLearning := h2
    rw [lookup_putKey_ne _ _ _ h2', lookup_putKey_ne _ _ _ h1']
    exact lookup_of_mem _ _ _ hnd' hv'
  · intro k hk
    rw [keys_putKey, keys_putKey] at hk
    rcases hk with h1 | h1 | h1
    · exact .inr (.inl h1)
    · exact .inl h1
    · exact .inr (.inr ((sameDict_keys h).mem_iff.1 h1))

theorem titled_lookup {md : HspyFileSpec.Dict} {title : Text} (hmd : Storable (.dict md))
    (h : Titled md title) : title ≠ nUnnamed ∧ ∃ d, lookup nGeneral md = some (.dict d) ∧
      lookup nTitle d = some (.text title) ∧ (d.map Prod.fst).Nodup ∧ NoNul title := by
  obtain ⟨h1, d, h2, h3⟩ := h
  simp only [Storable] at hmd
  have gen : ∀ l : List (Text × Val), StorableDict l → ∀ k v, (k, v) ∈ l → Storable v := by
    intro l
    induction l with
    | nil => intro _ k v h; simp at h
    | cons a rest ih =>
      obtain ⟨k0, v0⟩ := a
      intro hs k v hm
      simp only [StorableDict] at hs
      rcases List.mem_cons.1 hm with e | hm
      · cases e; exact hs.2.1
      · exact ih hs.2.2 k v hm
  have hd := gen md hmd.2 _ _ h2
  simp only [Storable] at hd
  have ht := gen d hd.2 _ _ h3
  simp only [Storable] at ht
  exact ⟨h1, d, lookup_of_mem _ _ _ hmd.1 h2, lookup_of_mem _ _ _ hd.1 h3, hd.1, ht.2⟩

/-- Reading the group of a signal that was just written. -/
theorem readSignal_written (env : FileEnv) (lazy : Bool) (title : Text) (s : Given)
    (hs : Valid env.shape title s) (g : Group) (hw : Written env (toSignal s) ⟨[], []⟩ g) :
    ∃ e, readSignal env lazy [3, 3] (HspyOld.upgrade env) g = .ok e ∧
      e.data = s.data ∧ List.Forall₂ SameDict s.axes e.axes ∧ SameDict s.metadata e.metadata ∧
      SameDict s.originalMetadata e.originalMetadata ∧
      SameAttributes lazy s.learningResults s.attributes e.attributes ∧
      e.package = s.package ∧ e.packageVersion = s.packageVersion := by
  obtain ⟨md, r1, s1⟩ := readUnder_holds hw.metadata
  obtain ⟨om, r2, s2⟩ := readUnder_holds hw.original
  obtain ⟨att, r3, s3⟩ := readUnder_holds hw.attributes
  obtain ⟨lr, r4, s4⟩ := readUnder_holds hw.learning
  obtain ⟨ds, r5, s5⟩ := readAxes_holds env g s.axes 0 (fun j d hj => by
    rw [Nat.zero_add]; exact hw.axes j d hj)
  have none_of : ∀ n, n.take 5 ≠ nAxis →
      n ∉ [nMetadata, nOriginal, nLearning, nAttributes, nData] → lookup n g.items = none := by
    intro n h1 h2
    rw [hw.others n (notAxis n h1) h2]
    rfl
  have hk1 : hasKey nAttributes g.items = true := by
    obtain ⟨A, I, d', h1, _, _⟩ := hw.attributes
    simp [hasKey, h1]
  have hk2 : hasKey nLearning g.items = true := by
    obtain ⟨A, I, d', h1, _, _⟩ := hw.learning
    simp [hasKey, h1]
  have hk3 : hasKey nPeakLearning g.items = false := by
    simp [hasKey, none_of nPeakLearning (by decide) (by decide)]
  have hd : readData g = .ok s.data := by
    have h1 := none_of nRagged (by decide) (by decide)
    have h2 := none_of (pRagged ++ nData) (by decide) (by decide)
    have h3 : lookup nData g.items = some (.dset (.arr s.data)) := hw.data
    simp [readData, hasKey, h1, h2, h3]
  have hp : readPackage g = .ok (s.package, s.packageVersion) := by
    have ha : g.attrs = [(nPackage, .text s.package), (nPackageVersion, .text s.packageVersion)] := by
      rw [hw.attrs]; rfl
    unfold readPackage
    rw [ha]
    rfl
  have hax : axesOf env g (env.shape s.data).length = .ok ds := by
    unfold axesOf
    rw [← hs.axes, r5]
    simp only [bind, Except.bind]
    rw [if_pos s5.length_eq.symm]
  have hml := hs.metadata
  simp only [Storable] at hml
  obtain ⟨t1, d, t2, t3, t4, _⟩ := titled_lookup hs.metadata hs.title
  obtain ⟨v1, u1, w1⟩ := sameDict_lookup s1 hml.1 t2
  simp only [Same] at w1
  obtain ⟨d1, rfl, w2⟩ := w1
  obtain ⟨v2, u2, w3⟩ := sameDict_lookup w2 t4 t3
  simp only [Same] at w3
  subst w3
  have hfix := fixTitle_id u1 u2 t1
  refine ⟨⟨md, om, putKey nLearning (.dict lr) (putKey nLazy (.scalar (.bool lazy)) att),
    s.package, s.packageVersion, s.data, ds, []⟩, ?_, rfl, s5, s1, s2,
    sameAttributes lazy _ _ _ _ ?_ s3 s4, rfl, rfl⟩
  · have hv : metadataNames [3, 3] = (nMetadata, nOriginal) := rfl
    have r1' : readUnder env nMetadata g = .ok md := r1
    have r2' : readUnder env nOriginal g = .ok om := r2
    simp only [readSignal, readAttributes, hv, r1', r2', bind, Except.bind, hk1, if_true, r3, hp, hd, hax,
      addResults, hk2, r4, hk3, Bool.false_eq_true, if_false, hfix]
    rfl
  · have := hs.attributes
    simp only [Storable] at this
    exact this.1

/-! ### Models -/

/-- A model group of the file: what its dictionary is, and that it belongs to the signal. -/
def ModelNode (env : FileEnv) (name : Text) (d : HspyFile.Dict) (n : Node) : Prop :=
  ∃ d', readModel env n = .ok (some name, d') ∧ SameDict d d'

theorem dict2group_append (env : Env) : ∀ (d e : HspyFile.Dict) (g : Group),
    dict2group env (d ++ e) g = match dict2group env d g with
      | .ok g' => dict2group env e g'
      | .error x => .error x
  | [], e, g => by simp [dict2group]
  | (k, v) :: rest, e, g => by
    simp only [List.cons_append, dict2group]
    cases h : writeItem env k v g with
    | ok g' => exact dict2group_append env rest e g'
    | error x => rfl

theorem sameDict_del {d e : HspyFile.Dict} {k : Text} {v : Val} (hk : k ∉ d.map Prod.fst)
    (hnd : (d.map Prod.fst).Nodup) (h : SameDict (d ++ [(k, v)]) e) : SameDict d (delKey k e) := by
  have hkeys := sameDict_keys h
  apply sameDict_of_mem _ _ hnd
  · have h1 : (delKey k e).map Prod.fst = (e.map Prod.fst).filter fun x => decide (x ≠ k) := by
      unfold delKey
      rw [List.filter_map]
      rfl
    rw [h1]
    have h2 := hkeys.filter (fun x => decide (x ≠ k))
    refine h2.trans ?_
    rw [List.map_append, List.filter_append]
    have h3 : (d.map Prod.fst).filter (fun x => decide (x ≠ k)) = d.map Prod.fst := by
      rw [List.filter_eq_self]
      intro x hx
      simp only [decide_eq_true_eq]
      rintro rfl
      exact hk hx
    rw [h3]
    simp
  · intro k' v' hm
    obtain ⟨w, h1, h2⟩ := sameDict_mem h (List.mem_append_left _ hm)
    refine ⟨w, ?_, h2⟩
    unfold delKey
    rw [List.mem_filter]
    refine ⟨h1, ?_⟩
    simp only [decide_eq_true_eq]
    rintro rfl
    exact hk (List.mem_map.2 ⟨_, hm, rfl⟩)

theorem storableDict_append {d e : HspyFile.Dict} (h1 : StorableDict d) (h2 : StorableDict e) :
    StorableDict (d ++ e) := by
  induction d with
  | nil => exact h2
  | cons a rest ih =>
    obtain ⟨k, v⟩ := a
    simp only [List.cons_append, StorableDict] at h1 ⊢
    exact ⟨h1.1, h1.2.1, ih h1.2.2⟩

theorem plain_signal : PlainKey nSignal := by
  refine ⟨by decide, ?_⟩
  rintro ⟨ds, rest, hne, hd, he⟩
  rcases ds with _ | ⟨c, cs⟩
  · exact hne rfl
  · simp only [nSignal, List.cons_append, List.cons.injEq] at he
    have := hd c (by simp)
    rw [← he.1] at this
    exact absurd this (by decide)

/-- One model, written and linked. -/
theorem model_node (env : FileEnv) (horder : ∀ l, (env.order l).Perm l) (name : Text)
    (hn1 : NoNul name) (hn2 : name ≠ sNone) (d : HspyFile.Dict) (hd : Storable (.dict d))
    (hs : nSignal ∉ d.map Prod.fst) (A : List (Text × Attr)) (I : List (Text × Node))
    (hw : dict2group env.toEnv d ⟨[], []⟩ = .ok ⟨A, I⟩) :
    ModelNode env name d (.group (putKey nSignal (.text name) A) I) := by
  simp only [Storable] at hd
  have hd2 : Storable (.dict (d ++ [(nSignal, .text name)])) := by
    simp only [Storable]
    refine ⟨?_, storableDict_append hd.2 ?_⟩
    · rw [List.map_append, List.nodup_append]
      refine ⟨hd.1, by simp, ?_⟩
      intro a ha b hb
      simp only [List.map_cons, List.map_nil, List.mem_singleton] at hb
      subst hb
      rintro rfl
      exact hs ha
    · simp only [StorableDict, Storable]
      exact ⟨plain_signal, ⟨hn2, hn1⟩, trivial⟩
  obtain ⟨A', I', d', h1, h2, h3⟩ := stored env.toEnv horder _ hd2
  have h4 : dict2group env.toEnv (d ++ [(nSignal, .text name)]) ⟨[], []⟩ =
      .ok ⟨putKey nSignal (.text name) A, I⟩ := by
    rw [dict2group_append, hw]
    have : '\x00' ∉ name := hn1
    simp [dict2group, writeItem, HierDict.hasNul, putAttr, this]
  rw [h4] at h1
  cases h1
  exact ⟨delKey nSignal d', by simp [readModel, h2, lookup_putKey_same], sameDict_del hs hd.1 h3⟩

/-- Writing dictionaries of dictionaries adds one group for each. -/
theorem write_models (env : FileEnv) (horder : ∀ l, (env.order l).Perm l) (name : Text)
    (hn1 : NoNul name) (hn2 : name ≠ sNone) : ∀ (models : HspyFile.Dict) (g : Group),
    (models.map Prod.fst).Nodup → StorableDict models →
    (∀ m ∈ models, ∃ d, m.2 = .dict d ∧ nSignal ∉ d.map Prod.fst) →
    (∀ k ∈ models.map Prod.fst, k ∉ g.items.map Prod.fst) →
    ∃ nodes, dict2group env.toEnv models g = .ok ⟨g.attrs, g.items ++ nodes⟩ ∧
      List.Forall₂ (fun m n => n.1 = m.1 ∧ ∃ d, m.2 = .dict d ∧ ModelNode env name d n.2)
        models (linkModels name nodes)
  | [], g, _, _, _, _ => ⟨[], by simp [dict2group], .nil⟩
  | (k, v) :: rest, g, hnd, hst, hm, hfree => by
    obtain ⟨d, rfl, hs⟩ := hm (k, v) List.mem_cons_self
    simp only [List.map_cons, List.nodup_cons] at hnd
    simp only [StorableDict] at hst
    obtain ⟨A, I, d', h1, h2, h3⟩ := stored env.toEnv horder d hst.2.1
    have hk : k ∉ g.items.map Prod.fst := hfree k (by simp)
    have hput : putItem g k (.group A I) = ⟨g.attrs, g.items ++ [(k, .group A I)]⟩ := by
      unfold putItem
      rw [putKey_new _ _ _ hk]
    obtain ⟨nodes, h4, h5⟩ := write_models env horder name hn1 hn2 rest
      ⟨g.attrs, g.items ++ [(k, .group A I)]⟩ hnd.2 hst.2.2
      (fun m h => hm m (List.mem_cons_of_mem _ h)) (by
        intro k' hk' hmem
        simp only [List.map_append, List.mem_append, List.map_cons, List.map_nil,
          List.mem_singleton] at hmem
        rcases hmem with hmem | rfl
        · exact hfree k' (by simp only [List.map_cons, List.mem_cons]; exact .inr hk') hmem
        · exact hnd.1 hk')
    refine ⟨(k, .group A I) :: nodes, ?_, ?_⟩
    · simp only [dict2group, writeItem, requireGroup]
      rw [lookup_none _ _ hk]
      simp only [h1]
      rw [hput, h4]
      simp
    · exact .cons ⟨rfl, d, rfl, model_node env horder name hn1 hn2 d hst.2.1 hs A I h1⟩ h5

theorem readModels_nodes (env : FileEnv) (name : Text) (items : List (Text × Node)) :
    ∀ names : List Text,
    (∀ k ∈ names, ∃ n d, lookup k items = some n ∧ ModelNode env name d n) →
    ∃ R, readModels env items names = .ok R ∧ R.map Prod.fst = names ∧
      ∀ r ∈ R, r.2.1 = some name ∧ ∃ n, lookup r.1 items = some n ∧
        readModel env n = .ok (some name, r.2.2)
  | [], _ => ⟨[], rfl, rfl, by simp⟩
  | k :: names, h => by
    obtain ⟨n, d, h1, d', h2, h3⟩ := h k List.mem_cons_self
    obtain ⟨R, h4, h5, h6⟩ := readModels_nodes env name items names
      fun k' hk' => h k' (List.mem_cons_of_mem _ hk')
    refine ⟨(k, some name, d') :: R, by simp [readModels, h1, h2, h4], by simp [h5], ?_⟩
    intro r hr
    rcases List.mem_cons.1 hr with rfl | hr
    · exact ⟨rfl, n, h1, h2⟩
    · exact h6 r hr

theorem takeModels_all (name : Text) : ∀ (R : List (Text × Option Text × HspyFile.Dict)),
    (R.map Prod.fst).Nodup → (∀ r ∈ R, r.2.1 = some name) →
    withoutSignal R = [] ∧ (takeModels name (withSignal R)).2 = [] ∧
      (takeModels name (withSignal R)).1.Perm (R.map fun r => (r.1, Val.dict r.2.2))
  | [], _, _ => ⟨rfl, rfl, List.Perm.refl _⟩
  | (k, o, d) :: R, hnd, h => by
    have ho : o = some name := h _ List.mem_cons_self
    subst ho
    simp only [List.map_cons, List.nodup_cons] at hnd
    obtain ⟨h1, h2, h3⟩ := takeModels_all name R hnd.2 fun r hr => h r (List.mem_cons_of_mem _ hr)
    refine ⟨h1, ?_, ?_⟩
    · simp only [withSignal, takeModels, if_true]; exact h2
    · simp only [withSignal, takeModels, if_true]
      rw [putKey_new]
      · refine List.perm_append_comm.trans ?_
        exact h3.cons _
      · intro hk
        have := (h3.map Prod.fst).mem_iff.1 hk
        simp only [List.map_map] at this
        exact hnd.1 (by simpa [Function.comp_def] using this)

theorem forall2_fst {α β γ : Type} {P : α × β → α × γ → Prop} {l : List (α × β)}
    {m : List (α × γ)} (h : List.Forall₂ (fun a b => b.1 = a.1 ∧ P a b) l m) :
    m.map Prod.fst = l.map Prod.fst := by
  induction h with
  | nil => rfl
  | cons h _ ih => simp [ih, h.1]

theorem forall2_mem {α β : Type} {P : α → β → Prop} {l : List α} {m : List β}
    (h : List.Forall₂ P l m) {a : α} (ha : a ∈ l) : ∃ b ∈ m, P a b := by
  induction h with
  | nil => simp at ha
  | cons h _ ih =>
    rcases List.mem_cons.1 ha with rfl | ha
    · exact ⟨_, List.mem_cons_self, h⟩
    · obtain ⟨n, hn, hn'⟩ := ih ha
      exact ⟨n, List.mem_cons_of_mem _ hn, hn'⟩

/-! ### The file -/

theorem noNul_expName {title : Text} (h : NoNul title) : NoNul (expName (groupName title)) := by
  unfold NoNul at h ⊢
  unfold expName
  simp only [List.mem_append, not_or]
  refine ⟨⟨⟨by decide, by decide⟩, by decide⟩, ?_⟩
  unfold groupName
  rw [List.mem_map]
  rintro ⟨c, hc, he⟩
  by_cases hs : c = '/'
  · rw [if_pos hs] at he; exact absurd he (by decide)
  · rw [if_neg hs] at he
    subst he
    split at hc
    · exact absurd hc (by decide)
    · exact h hc

theorem expName_ne (n : Text) : expName n ≠ sNone := by
  unfold expName sNone
  simp

/-- **C129**: a signal written to a new file by either writer is read back as one signal: the same
data, axes, metadata, original metadata, attributes, package and models, and nothing else. The
file may have existed before. -/
theorem C129_file (env : FileEnv) (horder : ∀ l, (env.order l).Perm l)
    (hvisit : ∀ l, (env.visit l).Perm l) (format : Text) (same : Nat → Nat → Bool) (lazy : Bool)
    (title : Text) (s : Given) (hs : Valid env.shape title s) :
    ∃ f e, writeFile env format false true same (toSignal s) ⟨[], []⟩ = .ok f ∧
      HspyOld.fileReader env lazy f = .ok ⟨[e], []⟩ ∧ Saved lazy s (toReturned e) := by
  obtain ⟨g, hg, hw⟩ := writeGroup_fresh env horder same (toSignal s) ⟨[], []⟩ hs.axis hs.metadata
    hs.originalMetadata hs.learningResults hs.attributes (fun n _ => rfl)
  obtain ⟨e, he, e1, e2, e3, e4, e5, e6, e7⟩ := readSignal_written env lazy title s hs g hw
  obtain ⟨t1, d, t2, t3, t4, t5⟩ := titled_lookup hs.metadata hs.title
  have ht : titleOf (toSignal s).metadata = .ok title := by
    show titleOf s.metadata = _
    unfold titleOf
    rw [t2]; dsimp only; rw [t3]
  have hdata : hasKey nData g.items = true := by
    have := hw.data
    simp [hasKey, this]
  -- the part of the file without models
  generalize hF : (⟨[(nFormat, .text format), (nFormatVersion, .text nVersion)],
    [(nExperiments, .group [] [(groupName title, .group g.attrs g.items)])]⟩ : Group) = F
  have hwrite : writeFile env format false true same (toSignal s) ⟨[], []⟩ =
      writeModels env false (expName (groupName title)) s.models F := by
    have hr1 : requireGroup (putAttr (putAttr ⟨[], []⟩ nFormat (.text format)) nFormatVersion
        (.text nVersion)) nExperiments = .ok ⟨[], []⟩ := rfl
    have hr2 : requireGroup ⟨[], []⟩ (groupName title) = .ok ⟨[], []⟩ := rfl
    simp only [writeFile, bind, Except.bind, hr1, ht, hr2, hg]
    rw [← hF]
    rfl
  have hvis1 : env.visit [groupName title] = [groupName title] :=
    List.perm_singleton.1 (hvisit _)
  have hexps : ∀ (f : Group) (ms : List (Text × Text × HspyFile.Dict)),
      lookup nExperiments f.items =
        some (.group [] [(groupName title, .group g.attrs g.items)]) →
      readExperiments env lazy [3, 3] (HspyOld.upgrade env) f ms =
        .ok ([{ e with models := (takeModels (expName (groupName title)) ms).1 }],
          (takeModels (expName (groupName title)) ms).2) := by
    intro f ms hf
    unfold readExperiments
    rw [hf]
    simp only [List.map_cons, List.map_nil, hvis1, experimentNames, lookup, if_true, hdata,
      readExps, he]
  have hver : ∀ f : Group, lookup nFormatVersion f.attrs = some (.text nVersion) →
      formatVersion env f = .ok [3, 3] := by
    intro f hf
    unfold formatVersion
    rw [hf]
    rfl
  have hFe : lookup nExperiments F.items =
      some (.group [] [(groupName title, .group g.attrs g.items)]) := by rw [← hF]; rfl
  have hFv : lookup nFormatVersion F.attrs = some (.text nVersion) := by rw [← hF]; rfl
  have hFa : lookup nAnalysis F.items = none := by rw [← hF]; rfl
  by_cases hm : s.models = []
  · refine ⟨F, { e with models := [] }, ?_, ?_, ⟨e1, e2, e3, e4, e5, e6, e7, ?_⟩⟩
    · rw [hwrite, hm]; rfl
    · have h1 : modelsOf env F = .ok [] := by unfold modelsOf; rw [hFa]
      simp only [HspyOld.fileReader, readFile, bind, Except.bind, hver F hFv, h1, withSignal,
        hexps F [] hFe, withoutSignal, takeModels]
      rfl
    · rw [hm]; simp [SameDict, toReturned]
  · have hst := hs.models
    simp only [Storable] at hst
    obtain ⟨nodes, h1, h2⟩ := write_models env horder (expName (groupName title))
      (noNul_expName t5) (expName_ne _) s.models ⟨[], []⟩ hst.1 hst.2 hs.model (by simp)
    generalize hL : linkModels (expName (groupName title)) nodes = L at h2
    have hLkeys : L.map Prod.fst = s.models.map Prod.fst := by
      exact forall2_fst h2
    have hlook : ∀ m ∈ s.models, ∃ n d, lookup m.1 L = some n ∧ m.2 = .dict d ∧
        ModelNode env (expName (groupName title)) d n := by
      intro m hmm
      have : ∃ n ∈ L, n.1 = m.1 ∧ ∃ d, m.2 = .dict d ∧
          ModelNode env (expName (groupName title)) d n.2 := by
        exact forall2_mem h2 hmm
      obtain ⟨n, hn, hn1, d, hd, hmn⟩ := this
      refine ⟨n.2, d, lookup_of_mem _ _ _ (by rw [hLkeys]; exact hst.1) ?_, hd, hmn⟩
      rw [← hn1]; exact hn
    obtain ⟨R, r1, r2, r3⟩ := readModels_nodes env (expName (groupName title)) L
      (env.visit (L.map Prod.fst)) (by
        intro k hk
        have hk' := (hvisit _).mem_iff.1 hk
        rw [hLkeys] at hk'
        obtain ⟨m, hm1, rfl⟩ := List.mem_map.1 hk'
        obtain ⟨n, d, h3, _, h5⟩ := hlook m hm1
        exact ⟨n, d, h3, h5⟩)
    have hRnd : (R.map Prod.fst).Nodup := by
      rw [r2]
      exact (hvisit _).nodup_iff.2 (by rw [hLkeys]; exact hst.1)
    obtain ⟨q1, q2, q3⟩ := takeModels_all (expName (groupName title)) R hRnd fun r hr => (r3 r hr).1
    refine ⟨putItem F nAnalysis (.group [] [(nModels, .group [] L)]),
      { e with models := (takeModels (expName (groupName title)) (withSignal R)).1 }, ?_, ?_,
      ⟨e1, e2, e3, e4, e5, e6, e7, ?_⟩⟩
    · rw [hwrite]
      have hne : s.models.isEmpty = false := by
        cases hx : s.models with
        | nil => exact absurd hx hm
        | cons a b => rfl
      have hr1 : requireGroup F nAnalysis = .ok ⟨[], []⟩ := by unfold requireGroup; rw [hFa]
      have hr2 : requireGroup ⟨[], []⟩ nModels = .ok ⟨[], []⟩ := rfl
      simp only [writeModels, hne, Bool.false_eq_true, if_false, bind, Except.bind, hr1, hr2,
        storeDict, Bool.false_and, h1, List.nil_append, hL]
      rfl
    · have hf1 : lookup nExperiments (putItem F nAnalysis (.group [] [(nModels, .group [] L)])).items
          = some (.group [] [(groupName title, .group g.attrs g.items)]) := by
        show lookup nExperiments (putKey nAnalysis _ F.items) = _
        rw [lookup_putKey_ne _ _ _ (by decide), hFe]
      have hf2 : lookup nAnalysis (putItem F nAnalysis (.group [] [(nModels, .group [] L)])).items
          = some (.group [] [(nModels, .group [] L)]) := lookup_putKey_same _ _ _
      have hf3 : modelsOf env (putItem F nAnalysis (.group [] [(nModels, .group [] L)])) = .ok R := by
        unfold modelsOf
        rw [hf2]
        simp only [lookup, if_true]
        exact r1
      have hf4 := hver (putItem F nAnalysis (.group [] [(nModels, .group [] L)])) hFv
      simp only [HspyOld.fileReader, readFile, bind, Except.bind, hf4, hf3, hexps _ _ hf1, q1, q2]
      rfl
    · show SameDict s.models (takeModels (expName (groupName title)) (withSignal R)).1
      apply sameDict_of_mem _ _ hst.1
      · have h3 := q3.map Prod.fst
        refine h3.trans ?_
        rw [List.map_map]
        have h4 : (R.map (Prod.fst ∘ fun r => (r.1, Val.dict r.2.2))) = R.map Prod.fst := rfl
        rw [h4, r2, ← hLkeys]
        exact hvisit _
      · intro k v hkv
        obtain ⟨n, d, h3, h4, d', h5, h6⟩ := hlook _ hkv
        have hkR : k ∈ R.map Prod.fst := by
          rw [r2, (hvisit _).mem_iff, hLkeys]
          exact List.mem_map.2 ⟨_, hkv, rfl⟩
        obtain ⟨r, hr, rfl⟩ := List.mem_map.1 hkR
        obtain ⟨_, n', h7, h8⟩ := r3 r hr
        have : n' = n := by
          have h9 : lookup r.1 L = some n := h3
          rw [h9] at h7; cases h7; rfl
        subst this
        rw [h5] at h8
        cases h8
        refine ⟨.dict r.2.2, q3.mem_iff.2 (List.mem_map.2 ⟨r, hr, rfl⟩), ?_⟩
        have h4' : v = .dict d := h4
        subst h4'
        simp only [Same]
        exact ⟨_, rfl, h6⟩

/-- **C129**, hspy: saving without options, whatever the file held before. -/
theorem C129_hspy (env : FileEnv) (horder : ∀ l, (env.order l).Perm l)
    (hvisit : ∀ l, (env.visit l).Perm l) (same : Nat → Nat → Bool) (lazy samePath lazy' : Bool)
    (handle : Option Mode) (hh : lazy = false ∨ samePath = false ∨ handle = none)
    (title : Text) (s : Given) (hs : Valid env.shape title s) (prev : Option Group) :
    ∃ f e, fileWriter env true none lazy samePath handle same (toSignal s) prev = .ok f ∧
      HspyOld.fileReader env lazy' f = .ok ⟨[e], []⟩ ∧ Saved lazy' s (toReturned e) := by
  obtain ⟨f, e, h1, h2, h3⟩ := C129_file env horder hvisit "HyperSpy".toList same lazy' title s hs
  refine ⟨f, e, ?_, h2, h3⟩
  have hm : chooseMode true none lazy samePath handle = .ok (.w, true) := by
    rcases hh with h | h | h
    · subst h; rfl
    · subst h; cases lazy <;> rfl
    · subst h; cases lazy <;> cases samePath <;> rfl
  simp only [fileWriter, hm, bind, Except.bind]
  cases prev <;> exact h1

/-- **C129**, zspy. -/
theorem C129_zspy (env : FileEnv) (horder : ∀ l, (env.order l).Perm l)
    (hvisit : ∀ l, (env.visit l).Perm l) (lazy : Bool) (title : Text) (s : Given)
    (hs : Valid env.shape title s) (prev : Option Group) :
    ∃ f e, fileWriterZspy env true (toSignal s) prev = .ok f ∧
      HspyOld.fileReader env lazy f = .ok ⟨[e], []⟩ ∧ Saved lazy s (toReturned e) := by
  obtain ⟨f, e, h1, h2, h3⟩ :=
    C129_file env horder hvisit "ZSpy".toList (fun _ _ => false) lazy title s hs
  refine ⟨f, e, ?_, h2, h3⟩
  simp only [fileWriterZspy, bind, Except.bind]
  cases prev <;> exact h1

end Verif.Props.HspyFile
