import Verif.Lemmas.EmdNcemStack
/-! Lemmas for EMD files: metadata, and the datasets of a file. -/
namespace Verif.Lemmas.EmdNcem
open Verif Verif.EmdNcem Verif.Spec.EmdNcem

/-! ### Parameters of prismatic -/

theorem mapping_long : mapping = long.map fun e => (e.1.toList, e.2.toList) := by decide +kernel

theorem mapping_nodup : (mapping.map Prod.fst).Nodup := by decide +kernel

theorem long_iff {k k' : Text} : Long k k' ↔ (getKw k mapping).getD k = k' := by
  have key : (∃ e ∈ long, e.1.toList = k ∧ e.2.toList = k') ↔ (k, k') ∈ mapping := by
    rw [mapping_long, List.mem_map]
    constructor
    · rintro ⟨e, he, rfl, rfl⟩; exact ⟨e, he, rfl⟩
    · rintro ⟨e, he, h⟩
      cases h
      exact ⟨e, he, rfl, rfl⟩
  have key2 : (∀ e ∈ long, e.1.toList ≠ k) ↔ k ∉ mapping.map Prod.fst := by
    rw [mapping_long, List.map_map, List.mem_map]
    simp only [not_exists, not_and, Function.comp_apply, ne_eq]
  unfold Long
  rw [key, key2]
  constructor
  · rintro (h | ⟨h, rfl⟩)
    · rw [getKw_mem mapping_nodup h]; rfl
    · rw [getKw_none h]; rfl
  · intro h
    by_cases hm : k ∈ mapping.map Prod.fst
    · left
      obtain ⟨e, he, rfl⟩ := List.mem_map.1 hm
      have := getKw_mem mapping_nodup (k := e.1) (v := e.2) he
      rw [this] at h
      have h : e.2 = k' := h
      rw [← h]
      exact he
    · right
      rw [getKw_none hm] at h
      exact ⟨hm, h.symm⟩

theorem rename_fold {g : Text → Text} {k' : Text} {v : V} : ∀ {a d : Attrs}, (a.map Prod.fst).Nodup →
    (∀ k ∈ a.map Prod.fst, ∀ l ∈ a.map Prod.fst, g k = g l → k = l) →
    (getKw k' (a.foldl (fun d e => setKw (g e.1) e.2 d) d) = some v ↔
      (∃ k, (k, v) ∈ a ∧ g k = k') ∨ ((∀ e ∈ a, g e.1 ≠ k') ∧ getKw k' d = some v))
  | [], d, _, _ => by simp
  | e :: a, d, hn, hi => by
    rw [List.map_cons, List.nodup_cons] at hn
    rw [List.foldl_cons, rename_fold hn.2 (fun k hk l hl => hi k (by simp [hk]) l (by simp [hl])), getKw_setKw]
    have hne : ∀ e' ∈ a, g e'.1 ≠ g e.1 := by
      intro e' he' heq
      have := hi e'.1 (List.mem_cons_of_mem _ (List.mem_map.2 ⟨e', he', rfl⟩)) e.1 (by simp) heq
      exact hn.1 (this ▸ List.mem_map.2 ⟨e', he', rfl⟩)
    by_cases hk : k' = g e.1
    · subst hk
      rw [if_pos rfl]
      constructor
      · rintro (⟨k, h1, h2⟩ | ⟨_, h⟩)
        · exact absurd h2 (hne (k, v) h1)
        · exact .inl ⟨e.1, by rw [← Option.some.inj h]; simp, rfl⟩
      · rintro (⟨k, h1, h2⟩ | ⟨h, _⟩)
        · rcases List.mem_cons.1 h1 with h1 | h1
          · exact .inr ⟨hne, by rw [← h1]⟩
          · exact absurd h2 (hne (k, v) h1)
        · exact absurd rfl (h e (by simp))
    · rw [if_neg hk]
      constructor
      · rintro (⟨k, h1, h2⟩ | ⟨h1, h2⟩)
        · exact .inl ⟨k, by simp [h1], h2⟩
        · refine .inr ⟨fun e' he' => ?_, h2⟩
          rcases List.mem_cons.1 he' with rfl | he'
          · exact fun h => hk h.symm
          · exact h1 e' he'
      · rintro (⟨k, h1, h2⟩ | ⟨h1, h2⟩)
        · rcases List.mem_cons.1 h1 with h1 | h1
          · exact absurd (by rw [← h1]; exact h2.symm) hk
          · exact .inl ⟨k, h1, h2⟩
        · exact .inr ⟨fun e' he' => h1 e' (by simp [he']), h2⟩

theorem rename_ok {a : Attrs} (h : Distinct a) : Parameters a (rename a) := by
  intro k' v
  unfold rename
  rw [rename_fold (g := fun k => (getKw k mapping).getD k) h.1]
  · constructor
    · rintro (⟨k, h1, h2⟩ | ⟨_, h⟩)
      · exact ⟨k, h1, long_iff.2 h2⟩
      · simp [getKw] at h
    · rintro ⟨k, h1, h2⟩
      exact .inl ⟨k, h1, long_iff.1 h2⟩
  · intro k hk l hl e
    exact h.2 k hk l hl _ (long_iff.2 rfl) (long_iff.2 e.symm)

/-! ### Original metadata -/

theorem path_group {n : Text} (h : n ∈ groupNames) : Path n := by
  apply path_part
  revert n
  unfold Part groupNames
  decide

theorem path_parameters : Path parameterPath := by
  refine ⟨["4DSTEM_simulation".toList, "metadata".toList, "metadata_0".toList, "original".toList, "simulation_parameters".toList], by simp, ?_, ?_⟩
  · unfold Part
    decide
  · decide +kernel

theorem omGroups_mem {f : File} {n : Text} {a : Attrs} : (n, a) ∈ omGroups f ↔ n ∈ groupNames ∧
    (getKw n f.entries = some (.group a) ∨ ∃ d, getKw n f.entries = some (.dset d) ∧ d.attrs = a) := by
  unfold omGroups
  rw [List.mem_filterMap]
  constructor
  · rintro ⟨m, hm, h⟩
    rw [get_path (path_group hm)] at h
    obtain ⟨o, ho, h⟩ := Option.map_eq_some_iff.1 h
    cases h
    refine ⟨hm, ?_⟩
    cases o with
    | group b => exact .inl ho
    | dset d => exact .inr ⟨d, ho, rfl⟩
  · rintro ⟨hm, h⟩
    refine ⟨n, hm, ?_⟩
    rw [get_path (path_group hm)]
    rcases h with h | ⟨d, h, rfl⟩
    · rw [h]; rfl
    · rw [h]; rfl

theorem version_ok {env : Env} {at' : Attrs} {a b : Text} (ha : getKw "version_major".toList at' = some (.str a))
    (hb : getKw "version_minor".toList at' = some (.str b)) : version env at' = some (a ++ '.' :: b) := by
  unfold version
  rw [ha, hb]
  rfl

theorem original_ok {env : Env} {f : File} (h : Complete f) : ∃ o, parseOriginal env f = .ok o ∧ ShowsOriginal f o ∧
    ∀ a, Prismatic f → getKw parameterPath f.entries = some (.group a) → o.simulation = some (rename a) := by
  unfold parseOriginal
  by_cases hp : Prismatic f
  · rw [if_pos (prismatic_iff.2 hp)]
    obtain ⟨a, ha⟩ := h hp
    have : get f simulationPath = some (.group a) := by
      rw [show simulationPath = parameterPath from rfl, get_path path_parameters, ha]
    rw [this]
    refine ⟨_, rfl, ⟨?_, ?_, ?_, ?_⟩, ?_⟩
    · intro x y hx hy; exact version_ok hx hy
    · intro n b; exact omGroups_mem
    · intro hn; exact absurd hp hn
    · intro _ a' ha' hd
      rw [ha] at ha'
      cases ha'
      exact ⟨_, rfl, rename_ok hd⟩
    · intro a' _ ha'
      rw [ha] at ha'
      cases ha'
      rfl
  · rw [if_neg (fun e => hp (prismatic_iff.1 e))]
    refine ⟨_, rfl, ⟨?_, ?_, ?_, ?_⟩, ?_⟩
    · intro x y hx hy; exact version_ok hx hy
    · intro n b; exact omGroups_mem
    · intro _; rfl
    · intro hn; exact absurd hn hp
    · intro a hn; exact absurd hn hp

theorem signalType_ok (g : Text) : (Has "CBED".toList g → signalType g = "electron_diffraction".toList) ∧
    (¬ Has "CBED".toList g → signalType g = []) := by
  unfold signalType
  constructor
  · intro h; rw [if_pos (inText_iff.2 h)]
  · intro h; rw [if_neg (fun e => h (inText_iff.1 e))]

theorem meta_ok {f : File} {g t : Text} {a : Arr} {axes : List Axis} {o : Original} (h : ShowsOriginal f o) :
    ShowsMeta f g t ⟨a, axes, titleOf (basename t), basename f.name, signalType g, o⟩ := by
  refine ⟨?_, last_basename _, (signalType_ok g).1, (signalType_ok g).2, h⟩
  intro l w hl hw
  show titleOf (basename t) = w
  rw [basename_last hl, titleOf_ok hw]

/-! ### Datasets of a file -/

theorem prefixes_words : prefixes = Spec.EmdNcem.words.map String.toList := by decide

theorem supported_iff {n : Text} : supported n = true ↔ DataName n := by
  unfold supported DataName
  rw [prefixes_words, List.any_map, List.any_eq_true]
  simp only [Function.comp_apply, List.isPrefixOf_iff_prefix]

theorem truthy_ok {v : V} (h : Clear v) : ∃ b, truthy v = .ok b ∧ (b = true ↔ Yes v) := by
  unfold Yes
  cases v with
  | str t => exact ⟨_, rfl, by simp⟩
  | bytes t => exact ⟨_, rfl, by simp⟩
  | num q => exact ⟨_, rfl, by simp⟩
  | list l =>
    match l with
    | [] => exact ⟨false, rfl, by simp⟩
    | [q] => exact ⟨_, rfl, by simp⟩
    | a :: b :: l => exact absurd rfl (h a b l)

theorem attrsAt_get {f : File} {p : Text} {a : Attrs} (hp : Path p) (h : AttrsAt f p a) : ∃ o, get f p = some o ∧ attrsOf o = a := by
  rw [get_path hp]
  rcases h with h | ⟨d, h, rfl⟩
  · exact ⟨_, h, rfl⟩
  · exact ⟨_, h, rfl⟩

theorem path_parent {g n : Text} (h : Path (inside g n)) (hn : '/' ∉ n) : Path g := by
  obtain ⟨ps, h0, hp, he⟩ := h
  rcases List.eq_nil_or_concat ps with rfl | ⟨qs, q, rfl⟩
  · exact absurd rfl h0
  · rw [List.concat_eq_append] at he hp
    by_cases hq : qs = []
    · subst hq
      have hqq := hp q (by simp)
      simp only [List.nil_append, joinWith] at he
      exfalso
      apply hqq.2.2
      rw [← he]
      simp [inside]
    · rw [join_snoc hq] at he
      have hqn := (hp q (by simp)).2.2
      have h1 := congrArg basename he
      rw [basename_inside hn, basename_inside hqn] at h1
      subst h1
      have : g = joinWith ['/'] qs := by
        unfold inside at he
        exact List.append_cancel_right he
      exact ⟨qs, hq, fun x hx => hp x (by simp [hx]), this⟩

theorem listed_ok {f : File} (h : Ordered f) {e : Text × Obj} (he : e ∈ f.entries) :
    ∃ b, listed f e = .ok b ∧ (b = true ↔ IsData f e.1 e.2) := by
  obtain ⟨p, o⟩ := e
  unfold listed
  have hpath := h.1 _ he
  by_cases hs : DataName (basename p)
  · rw [if_pos (supported_iff.2 hs)]
    cases o with
    | group a => exact ⟨false, rfl, by simp [IsData]⟩
    | dset d =>
      obtain ⟨g, a, hp, ha, hc⟩ := h.2 p d he (basename p) (last_basename p) hs
      have hb := (last_basename p).1
      have hdir : dirname p = g := by
        have hg : Path g := path_parent (hp ▸ hpath) hb
        conv_lhs => rw [hp]
        exact dirname_inside hg hb
      have hg : Path g := path_parent (hp ▸ hpath) hb
      dsimp only
      rw [hdir, if_neg (path_ne_nil hg)]
      obtain ⟨o, ho, hoa⟩ := attrsAt_get hg ha
      rw [ho]
      unfold groupType
      dsimp only
      rw [hoa]
      have hisd : IsData f p (.dset d) ↔ ∃ v, getKw "emd_group_type".toList a = some v ∧ Yes v := by
        constructor
        · rintro ⟨_, g', n, a', v, h1, h2, h3, h4, h5, h6⟩
          have hn : n = basename p := by rw [h1, basename_inside h2]
          subst hn
          have hgg : g' = g := by
            have := hp.symm.trans h1
            unfold inside at this
            exact (List.append_cancel_right this).symm
          subst hgg
          have haa : a' = a := by
            obtain ⟨o', ho', hoa'⟩ := attrsAt_get hg h4
            rw [ho] at ho'
            cases ho'
            rw [← hoa', hoa]
          subst haa
          exact ⟨v, h5, h6⟩
        · rintro ⟨v, h5, h6⟩
          exact ⟨⟨d, rfl⟩, g, basename p, a, v, hp, hb, hs, ha, h5, h6⟩
      cases hv : getKw "emd_group_type".toList a with
      | none =>
        refine ⟨false, rfl, ?_⟩
        rw [hisd, hv]
        simp
      | some v =>
        obtain ⟨b, hb1, hb2⟩ := truthy_ok (hc v hv)
        refine ⟨b, hb1, ?_⟩
        rw [hisd, hv, hb2]
        constructor
        · intro hy; exact ⟨v, rfl, hy⟩
        · rintro ⟨w, hw, hy⟩; cases hw; exact hy
  · rw [if_neg (fun e => hs (supported_iff.1 e))]
    refine ⟨false, rfl, ?_⟩
    constructor
    · intro h; cases h
    · rintro ⟨_, g, n, a, v, h1, h2, h3, _⟩
      have h1 : p = inside g n := h1
      rw [h1, basename_inside h2] at hs
      exact absurd h3 hs

theorem find_fold {f : File} {P : Text × Obj → Bool} : ∀ {es : List (Text × Obj)} {l : List Text},
    (∀ e ∈ es, listed f e = .ok (P e)) →
    es.foldlM (fun l e => (listed f e).map fun b => if b then l ++ [e.1] else l) l = .ok (l ++ (es.filter P).map Prod.fst)
  | [], l, _ => by simp; rfl
  | e :: es, l, h => by
    rw [List.foldlM_cons, h e (by simp)]
    show List.foldlM _ (if P e = true then l ++ [e.1] else l) es = _
    rw [find_fold fun e' he' => h e' (by simp [he'])]
    by_cases hp : P e = true
    · rw [if_pos hp, List.filter_cons_of_pos hp]; simp
    · rw [if_neg hp, List.filter_cons_of_neg hp]

theorem findPaths_ok {f : File} {ps : List Text} (h : Ordered f) (ha : AllData f ps) : findPaths f = .ok ps := by
  unfold findPaths
  rw [find_fold (P := fun e => @decide (IsData f e.1 e.2) (Classical.propDecidable _))]
  · rw [List.nil_append, ha]
  · intro e he
    obtain ⟨b, hb, hi⟩ := listed_ok h he
    rw [hb]
    congr 1
    cases b
    · have : ¬ IsData f e.1 e.2 := fun e => Bool.false_ne_true (hi.2 e)
      simp [this]
    · simp [hi.1 rfl]

theorem isNcem_iff {f : File} : isNcem f = true ↔ Berkeley f := by
  have hv : ∀ a : Attrs, hasVersion a = true ↔ ∃ v w, getKw "version_major".toList a = some v ∧ getKw "version_minor".toList a = some w := by
    intro a
    unfold hasVersion
    rw [Bool.and_eq_true, Option.isSome_iff_exists, Option.isSome_iff_exists]
    constructor
    · rintro ⟨⟨v, hv⟩, w, hw⟩; exact ⟨v, w, hv, hw⟩
    · rintro ⟨v, w, hv, hw⟩; exact ⟨⟨v, hv⟩, w, hw⟩
  unfold isNcem Berkeley
  rw [Bool.or_eq_true, hv, List.any_eq_true]
  apply or_congr Iff.rfl
  constructor
  · rintro ⟨⟨n, o⟩, he, h⟩
    rw [Bool.and_eq_true, Bool.and_eq_true, decide_eq_true_iff] at h
    obtain ⟨⟨h1, h2⟩, h3⟩ := h
    cases o with
    | dset d => simp [isGroup] at h2
    | group a =>
      obtain ⟨v, w, h4, h5⟩ := (hv a).1 h3
      exact ⟨n, a, v, w, he, h1, h4, h5⟩
  · rintro ⟨n, a, v, w, he, h1, h4, h5⟩
    refine ⟨_, he, ?_⟩
    rw [Bool.and_eq_true, Bool.and_eq_true, decide_eq_true_iff]
    exact ⟨⟨h1, rfl⟩, (hv a).2 ⟨v, w, h4, h5⟩⟩

end Verif.Lemmas.EmdNcem
