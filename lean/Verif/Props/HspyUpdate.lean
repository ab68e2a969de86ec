import Verif.Props.HspyFile
/-! Property C130: saving over an existing hspy file. -/
namespace Verif.Props.HspyUpdate
open Verif Verif.HierDict Verif.HspyFile Verif.HierDictSpec Verif.HspyFileSpec
open Verif.Props.HspyFile (toSignal toReturned)

theorem storeUnder_only {env : Env} {mode : Bool} {name : Text} {d : HspyFile.Dict} {g g' : Group}
    (h : storeUnder env mode name d g = .ok g') : OnlyItems g g' (fun n => n = name) := by
  unfold storeUnder at h
  cases h1 : requireGroup g name with
  | error e => rw [h1] at h; cases h
  | ok sub =>
    rw [h1] at h
    dsimp only at h
    cases h2 : storeDict env mode d sub with
    | error e => rw [h2] at h; cases h
    | ok sub' =>
      rw [h2] at h
      cases h
      exact onlyItems_put _ _ _

theorem okBind {α β : Type} (x : Py α) (f : α → Py β) (y : β) (h : (x >>= f) = .ok y) :
    ∃ a, x = .ok a ∧ f a = .ok y := by
  cases x with
  | error e => cases h
  | ok a => exact ⟨a, rfl, h⟩

/-- What writing without the data does to a group: the axes are replaced, the data kept. -/
theorem writeGroup_update (env : FileEnv) (horder : ∀ l, (env.order l).Perm l)
    (same : Nat → Nat → Bool) (s : Signal) (g g' : Group)
    (haxes : ∀ a ∈ s.axes, Storable (.dict a))
    (h : writeGroup env false false same s g = .ok g') :
    (∀ j d, s.axes[j]? = some d → Holds env.toEnv g' (nAxis ++ decChars j) d) ∧
    g'.attrs = (putPackage s.package g).attrs ∧
    ∀ n, (∀ r, n ≠ nAxis ++ r) → n ∉ [nMetadata, nOriginal, nLearning, nAttributes] →
      lookup n g'.items = lookup n g.items := by
  obtain ⟨g1, w1, ax1, i1⟩ := writeAxes_ok env.toEnv horder s.axes 0 (putPackage s.package g) haxes
  unfold writeGroup at h
  rw [w1] at h
  replace h := okBind _ _ _ h
  obtain ⟨_, e0, h⟩ := h
  cases e0
  obtain ⟨m, hm, h⟩ := okBind _ _ _ h
  obtain ⟨g2, e2, h⟩ := okBind _ _ _ h
  cases e2
  obtain ⟨ga, ha, h⟩ := okBind _ _ _ h
  obtain ⟨gb, hb, h⟩ := okBind _ _ _ h
  obtain ⟨gc, hc, h⟩ := okBind _ _ _ h
  have i2 := onlyItems_put g1 nMetadata (.group m.attrs m.items)
  have i3 := storeUnder_only ha
  have i4 := storeUnder_only hb
  have i5 := storeUnder_only hc
  have i6 := storeUnder_only h
  have keep : ∀ n, n ∉ [nMetadata, nOriginal, nLearning, nAttributes] →
      lookup n g'.items = lookup n g1.items := by
    intro n hn
    simp only [List.mem_cons, List.not_mem_nil, or_false, not_or] at hn
    rw [i6.2 n hn.2.2.2, i5.2 n hn.2.2.1, i4.2 n hn.2.1, i3.2 n hn.1, i2.2 n hn.1]
  refine ⟨?_, ?_, ?_⟩
  · intro j d hj
    obtain ⟨A, I, d', h1, h2, h3⟩ := ax1 j d hj
    refine ⟨A, I, d', ?_, h2, h3⟩
    rw [Nat.zero_add] at h1
    rw [keep, h1]
    intro hn
    have : ∀ n ∈ [nMetadata, nOriginal, nLearning, nAttributes], n.take 5 ≠ nAxis := by decide
    exact this _ hn rfl
  · rw [i6.1, i5.1, i4.1, i3.1, i2.1, i1.1]
  · intro n h1 h2
    rw [keep n h2, i1.2 n (by rintro ⟨j, _, e⟩; exact h1 _ e), putPackage_items]

/-- **C130 (partial)**: saving with `write_dataset=False` into a file that holds the signal keeps
the data and every other experiment, and replaces the axes: whatever is read afterwards from the
group of the signal has the old data and the new axes. Missing (false, see below): the metadata
are merged with those in the file. -/
theorem C130_update_partial (env : FileEnv) (horder : ∀ l, (env.order l).Perm l)
    (same : Nat → Nat → Bool) (title : Text) (s : Given) (ht : titleOf s.metadata = .ok title)
    (haxes : ∀ a ∈ s.axes, Storable (.dict a)) (f f' : Group) (fa ga : List (Text × Attr))
    (exps items : List (Text × Node)) (t : Nat)
    (hf : lookup "Experiments".toList f.items = some (.group fa exps))
    (hg : lookup (groupName title) exps = some (.group ga items))
    (hd : lookup "data".toList items = some (.dset (.arr t)))
    (hn : s.axes.length = (env.shape t).length)
    (hw : fileWriter env false none false false none same (toSignal s) (some f) = .ok f') :
    ∃ exps' ga' items', lookup "Experiments".toList f'.items = some (.group fa exps') ∧
      lookup (groupName title) exps' = some (.group ga' items') ∧
      (∀ n, n ≠ groupName title → lookup n exps' = lookup n exps) ∧
      ∀ lazy e, readSignal env lazy [3, 3] (HspyOld.upgrade env) ⟨ga', items'⟩ = .ok e →
        e.data = t ∧ List.Forall₂ SameDict s.axes e.axes ∧ e.package = s.package ∧
          e.packageVersion = s.packageVersion := by
  have hw0 : writeFile env ['H', 'y', 'p', 'e', 'r', 'S', 'p', 'y'] false false same (toSignal s) f =
      .ok f' := hw
  clear hw
  rename' hw0 => hw
  unfold writeFile at hw
  dsimp only at hw
  obtain ⟨ex, r1, hw⟩ := okBind _ _ _ hw
  obtain ⟨ti, r2, hw⟩ := okBind _ _ _ hw
  have hti : ti = title := by
    have : titleOf (toSignal s).metadata = .ok title := ht
    rw [this] at r2; cases r2; rfl
  subst hti
  obtain ⟨eg, r3, hw⟩ := okBind _ _ _ hw
  obtain ⟨eg', r4, hw9⟩ := okBind _ _ _ hw
  have hex : ex = ⟨fa, exps⟩ := by
    unfold requireGroup at r1
    have h1 : lookup nExperiments (putAttr (putAttr f nFormat
        (.text ['H', 'y', 'p', 'e', 'r', 'S', 'p', 'y'])) nFormatVersion (.text nVersion)).items =
        some (.group fa exps) := hf
    rw [h1] at r1; cases r1; rfl
  subst hex
  have heg : eg = ⟨ga, items⟩ := by
    unfold requireGroup at r3
    rw [hg] at r3; cases r3; rfl
  subst heg
  obtain ⟨u1, u2, u3⟩ := writeGroup_update env horder same (toSignal s) ⟨ga, items⟩ eg' haxes r4
  have hmod : lookup nExperiments f'.items =
      some (.group fa (putKey (groupName ti) (.group eg'.attrs eg'.items) exps)) := by
    clear hw
    unfold writeModels at hw9
    by_cases hm : (toSignal s).models.isEmpty
    · rw [if_pos hm] at hw9
      cases hw9
      exact lookup_putKey_same _ _ _
    · rw [if_neg hm] at hw9
      obtain ⟨a1, _, hw1⟩ := okBind _ _ _ hw9
      obtain ⟨a2, _, hw2⟩ := okBind _ _ _ hw1
      obtain ⟨a3, _, hw3⟩ := okBind _ _ _ hw2
      cases hw3
      show lookup nExperiments (putKey nAnalysis _ (putKey nExperiments _ _)) = _
      rw [lookup_putKey_ne _ _ _ (by decide)]
      exact lookup_putKey_same _ _ _
  refine ⟨_, eg'.attrs, eg'.items, hmod, lookup_putKey_same _ _ _,
    fun n hn => lookup_putKey_ne _ _ _ hn _, ?_⟩
  intro lazy e he
  have hdat : lookup nData eg'.items = some (.dset (.arr t)) := by
    rw [u3 nData (notAxis _ (by decide)) (by decide)]
    exact hd
  obtain ⟨ds, r5, s5⟩ := readAxes_holds env ⟨eg'.attrs, eg'.items⟩ s.axes 0 (fun j d hj => by
    rw [Nat.zero_add]; exact u1 j d hj)
  have hp : readPackage ⟨eg'.attrs, eg'.items⟩ = .ok (s.package, s.packageVersion) := by
    have h1 : lookup nPackage eg'.attrs = some (.text s.package) := by
      rw [u2]
      show lookup nPackage (putKey nPackageVersion _ (putKey nPackage _ _)) = _
      rw [lookup_putKey_ne _ _ _ (by decide)]
      exact lookup_putKey_same _ _ _
    have h2 : lookup nPackageVersion eg'.attrs = some (.text s.packageVersion) := by
      rw [u2]
      exact lookup_putKey_same _ _ _
    simp only [readPackage, h1, h2]
  unfold readSignal at he
  obtain ⟨md, _, he⟩ := okBind _ _ _ he
  obtain ⟨om, _, he⟩ := okBind _ _ _ he
  obtain ⟨att, _, he⟩ := okBind _ _ _ he
  obtain ⟨pk, q1, he⟩ := okBind _ _ _ he
  obtain ⟨dt, q2, he⟩ := okBind _ _ _ he
  obtain ⟨axs, q3, he⟩ := okBind _ _ _ he
  obtain ⟨att2, _, he⟩ := okBind _ _ _ he
  obtain ⟨att3, _, he⟩ := okBind _ _ _ he
  obtain ⟨md2, _, he⟩ := okBind _ _ _ he
  obtain ⟨r, _, he⟩ := okBind _ _ _ he
  cases he
  rw [hp] at q1
  cases q1
  have hdt : dt = t := by
    unfold readData at q2
    split at q2
    · cases q2
    · rw [hdat] at q2; cases q2; rfl
  subst hdt
  have hax : axs = ds := by
    unfold axesOf at q3
    rw [← hn, r5] at q3
    simp only [bind, Except.bind] at q3
    rw [if_pos s5.length_eq.symm] at q3
    cases q3; rfl
  subst hax
  exact ⟨rfl, s5, rfl, rfl⟩

/-- **C130**: without writing the data the file is never emptied: it is opened for appending, or
through the handle of the lazy data; any other mode is refused. -/
theorem C130_no_truncation (given : Option Mode) (lazy samePath : Bool) (handle : Option Mode)
    (m : Mode × Bool) (h : chooseMode false given lazy samePath handle = .ok m) :
    (m.1 = .a ∨ m.1 = .rplus) ∧ m.2 = false := by
  revert h
  rcases given with _ | g
  · rcases handle with _ | k
    · cases lazy <;> cases samePath <;> (intro h; cases h; exact ⟨.inl rfl, rfl⟩)
    · cases lazy <;> cases samePath <;> cases k <;>
        (intro h; cases h <;> first | exact ⟨.inl rfl, rfl⟩ | exact ⟨.inr rfl, rfl⟩)
  · rcases handle with _ | k
    · cases g <;> cases lazy <;> cases samePath <;>
        (intro h; cases h <;> first | exact ⟨.inl rfl, rfl⟩ | exact ⟨.inr rfl, rfl⟩)
    · cases g <;> cases k <;> cases lazy <;> cases samePath <;>
        (intro h; cases h <;> first | exact ⟨.inl rfl, rfl⟩ | exact ⟨.inr rfl, rfl⟩)

/-- **C130**: a lazy signal is never written over its own file when that is open for reading
only, and when it is open for writing the file is not emptied before the data are read. -/
theorem C130_lazy_own_file (env : FileEnv) (write : Bool) (given : Option Mode)
    (same : Nat → Nat → Bool) (s : Signal) (prev : Option Group) :
    fileWriter env write given true true (some .r) same s prev = .error .ioError ∧
    ∀ m, m ≠ .r → chooseMode write given true true (some m) = .ok (.rplus, false) := by
  refine ⟨rfl, ?_⟩
  intro m hm
  cases m <;> first | rfl | exact absurd rfl hm

/-- **C130**: where the lazy data came from is found whether or not the extension has a dot. -/
theorem C130_original_path (folder fname ext : Text) (hf : folder ≠ []) (hx : ext ≠ [])
    (hd : ∀ r, ext ≠ '.' :: r) :
    originalPath folder fname ext = folder ++ "/".toList ++ fname ++ ".".toList ++ ext ∧
    originalPath folder fname ('.' :: ext) = folder ++ "/".toList ++ fname ++ ".".toList ++ ext := by
  rcases ext with _ | ⟨c, ext⟩
  · exact absurd rfl hx
  · have hc : c ≠ '.' := fun e => hd ext (by rw [e])
    rcases folder with _ | ⟨b, folder⟩
    · exact absurd rfl hf
    · constructor <;> simp [originalPath, hc]

/-- C130 is false for a mode given by the user: the keyword `mode` is also passed on to the
function that creates the dataset, so that no signal can be saved with `mode="w"`. -/
theorem C130_fails_explicit_mode (env : FileEnv) (lazy samePath : Bool) (same : Nat → Nat → Bool)
    (s : Signal) (prev : Option Group) (f : Group) :
    fileWriter env true (some .w) lazy samePath none same s prev ≠ .ok f := by
  intro hw
  have hw0 : writeFile env ['H', 'y', 'p', 'e', 'r', 'S', 'p', 'y'] true true same s ⟨[], []⟩ =
      .ok f := by
    cases lazy <;> cases samePath <;> cases prev <;> exact hw
  clear hw
  rename' hw0 => hw
  unfold writeFile at hw
  dsimp only at hw
  obtain ⟨ex, r1, hw⟩ := okBind _ _ _ hw
  cases r1
  obtain ⟨ti, r2, hw⟩ := okBind _ _ _ hw
  obtain ⟨eg, r3, hw⟩ := okBind _ _ _ hw
  cases r3
  obtain ⟨eg', r4, hw⟩ := okBind _ _ _ hw
  clear hw
  unfold writeGroup at r4
  obtain ⟨g1, w1, r4⟩ := okBind _ _ _ r4
  obtain ⟨m, hm, r4⟩ := okBind _ _ _ r4
  obtain ⟨g2, e3, r4⟩ := okBind _ _ _ r4
  have gen : ∀ (axes : List HspyFile.Dict) (i : Nat) (g g' : Group),
      writeAxes env.toEnv true i axes g = .ok g' → lookup nData g'.items = lookup nData g.items := by
    intro axes
    induction axes with
    | nil => intro i g g' h; cases h; rfl
    | cons a axes ih =>
      intro i g g' h
      simp only [writeAxes] at h
      cases h1 : writeAxis env.toEnv true i a g with
      | error e => rw [h1] at h; cases h
      | ok g2 =>
        rw [h1] at h
        rw [ih _ _ _ h]
        have h2 := (storeUnder_only h1).2 nData (notAxis _ (by decide) _)
        rw [h2]
        exact lookup_delKey_ne _ _ (notAxis _ (by decide) _) _
  have h1 : lookup nData (putItem g1 nMetadata (.group m.attrs m.items)).items = none := by
    show lookup nData (putKey nMetadata _ _) = none
    rw [lookup_putKey_ne _ _ _ (by decide), gen _ _ _ _ w1, putPackage_items]
    rfl
  unfold writeData at e3
  rw [if_pos rfl] at e3
  cases hc : checkNavigate s.axes with
  | error e => rw [hc] at e3; cases e3
  | ok u =>
    rw [hc] at e3
    dsimp only at e3
    unfold overwriteData at e3
    rw [if_pos rfl, h1] at e3
    cases e3

end Verif.Props.HspyUpdate
