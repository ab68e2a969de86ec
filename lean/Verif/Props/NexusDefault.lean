import Verif.Props.NexusAxes
/-! C122: the default signal of a NeXus file, lists of datasets, and arguments that are no keys. -/
namespace Verif.Props.Nexus
open Verif Verif.Nexus

/-- Loading an object changes nothing at other names. -/
theorem load_kid {skip : Bool} {k q : Text} (hne : q ≠ k) : ∀ (n : Node) {t r : Dict}, loadKid skip k n t = .ok r → getKw q r = getKw q t
  | .ds a v, t, r, h => by
    rw [loadKid] at h
    unfold loadDs at h
    simp only [bind, Except.bind, pure, Except.pure] at h
    split at h
    · split at h
      · cases h
      · obtain rfl := Except.ok.inj h
        rw [getKw_setKw, if_neg hne]
    · split at h
      · obtain rfl := Except.ok.inj h; rfl
      · split at h
        · cases h
        · obtain rfl := Except.ok.inj h
          rw [getKw_setKw, if_neg hne]
  | .grp a kids, t, r, h => by
    rw [loadKid] at h
    split at h
    · obtain rfl := Except.ok.inj h; rfl
    · split at h
      · obtain rfl := Except.ok.inj h
        rw [getKw_setKw, if_neg hne]
      · cases h
  | .soft _ n, t, r, h => by rw [loadKid] at h; exact load_kid hne n h
  | .ext n, t, r, h => by rw [loadKid] at h; exact load_kid hne n h

theorem load_kids {skip : Bool} {q : Text} : ∀ {l : Kids} {t r : Dict}, (∀ e ∈ l, q ≠ fixKey e.1) → loadKids skip l t = .ok r → getKw q r = getKw q t
  | [], t, r, _, h => by
    rw [loadKids] at h
    obtain rfl := Except.ok.inj h; rfl
  | (k, n) :: l, t, r, hq, h => by
    rw [loadKids] at h
    cases hk : loadKid skip (fixKey k) n t with
    | error e => rw [hk] at h; cases h
    | ok t1 =>
      rw [hk] at h
      rw [load_kids (fun e he => hq e (List.mem_cons_of_mem _ he)) h, load_kid (hq _ List.mem_cons_self) n hk]

theorem fix_plain {k : Text} (h : ¬ "keys".toList <+: k) : fixKey k = k := by
  unfold fixKey
  cases hs : starts "keys" k with
  | true => exact absurd (List.isPrefixOf_iff_prefix.1 hs) h
  | false => rfl

/-- What is loaded for a group. -/
theorem load_mem {skip : Bool} {k : Text} {a : Attrs} {kids : Kids} (ha : isData a = false) : ∀ {l : Kids} {t r : Dict}, (l.map Prod.fst).Nodup → (∀ e ∈ l, ¬ "keys".toList <+: e.1) →
    (k, .grp a kids) ∈ l → loadKids skip l t = .ok r → ∃ d, loadKids skip kids (attrsTree a) = .ok d ∧ getKw k r = some (.dict d)
  | (k', n) :: l, t, r, hnd, hk, hm, h => by
    obtain ⟨n1, n2⟩ := List.nodup_cons.1 hnd
    rw [loadKids] at h
    cases hq : loadKid skip (fixKey k') n t with
    | error e => rw [hq] at h; cases h
    | ok t1 =>
      rw [hq] at h
      rcases List.mem_cons.1 hm with e | hm
      · obtain ⟨rfl, rfl⟩ := Prod.mk.inj e
        have hl := load_kids (q := k) (fun e he => by
          rw [fix_plain (hk _ (List.mem_cons_of_mem _ he))]
          intro e'
          exact n1 (List.mem_map.2 ⟨_, he, by simp [e']⟩)) h
        rw [fix_plain (hk _ List.mem_cons_self), loadKid, ha] at hq
        simp only [Bool.false_eq_true, if_false] at hq
        split at hq
        · rename_i d hd
          obtain rfl := Except.ok.inj hq
          exact ⟨d, hd, by rw [hl, getKw_setKw, if_pos rfl]⟩
        · cases hq
      · exact load_mem ha n2 (fun e he => hk e (List.mem_cons_of_mem _ he)) hm h

/-- The attributes of a group. -/
theorem attrs_get {a : Attrs} {k : Text} {v : Leaf} (hn : (a.map Prod.fst).Nodup) (hk : ∀ e ∈ a, ¬ "keys".toList <+: e.1) (h : getKw k a = some v) :
    ∃ d, getKw "attrs".toList (attrsTree a) = some (.dict d) ∧ getKw k d = some (parseAttr v) := by
  have hne : a ≠ [] := by rintro rfl; cases h
  refine ⟨_, by unfold attrsTree; rw [if_neg hne]; rfl, ?_⟩
  have keep : ∀ (l : Attrs) (d : Dict), (∀ e ∈ l, fixKey e.1 ≠ k) → getKw k (l.foldl (fun d p => setKw (fixKey p.1) (parseAttr p.2) d) d) = getKw k d := by
    intro l
    induction l with
    | nil => intro d _; rfl
    | cons e l ih =>
      intro d hl
      rw [List.foldl_cons, ih _ fun e he => hl e (List.mem_cons_of_mem _ he), getKw_setKw, if_neg (Ne.symm (hl _ List.mem_cons_self))]
  have main : ∀ (l : Attrs) (d : Dict), (l.map Prod.fst).Nodup → (∀ e ∈ l, ¬ "keys".toList <+: e.1) → getKw k l = some v →
      getKw k (l.foldl (fun d p => setKw (fixKey p.1) (parseAttr p.2) d) d) = some (parseAttr v) := by
    intro l
    induction l with
    | nil => intro d _ _ h; cases h
    | cons e l ih =>
      intro d hnd hkk hg
      obtain ⟨k', v'⟩ := e
      obtain ⟨n1, n2⟩ := List.nodup_cons.1 hnd
      rw [List.foldl_cons]
      unfold getKw at hg
      split at hg
      · rename_i e
        subst e
        rw [keep _ _ fun e he => by
          rw [fix_plain (hkk _ (List.mem_cons_of_mem _ he))]
          intro e'
          exact n1 (List.mem_map.2 ⟨_, he, by simp [e']⟩)]
        rw [getKw_setKw, fix_plain (hkk _ List.mem_cons_self), if_pos rfl, Option.some.inj hg]
      · exact ih _ n2 (fun e he => hkk e (List.mem_cons_of_mem _ he)) hg
  exact main a [] hn hk h

/-- A text attribute without spaces at its end. -/
def Text1 (a : Attrs) (k : String) (t : Text) : Prop :=
  getKw k.toList a = some (.str t) ∨ getKw k.toList a = some (.bytes t) ∧ '\x00' ∉ t ∧ ∀ c, t.getLast? = some c → isSpace c = false

theorem text_parse {a : Attrs} {k : String} {t : Text} (h : Text1 a k t) : ∃ v, getKw k.toList a = some v ∧ parseAttr v = .str t := by
  rcases h with h | ⟨h, e⟩
  · exact ⟨_, h, rfl⟩
  · exact ⟨_, h, by show R.str (clean t) = _; rw [clean_id e.1 e.2]⟩

/-- **C122.** With `use_default`, in a file whose attribute `default` is an entry with an attribute `default` that is a NXdata group, the signals are those of the NXdata groups
with this path, or with this path as a part of theirs, and no others. -/
theorem C122_default {order : List Found → List Found} (ho : ∀ l, (order l).Perm l) {name : Text} {o : Opts} {a b c : Attrs} {kids l q : Kids} {e t : Text} {sigs : List Sig}
    (d : Distinct (.grp a kids)) (hu : o.useDefault = true) (he : (e, .grp b l) ∈ kids) (hd : (t, .grp c q) ∈ l) (hb : isData b = false) (hc : NXdata c)
    (na : (a.map Prod.fst).Nodup ∧ (b.map Prod.fst).Nodup) (ha : Text1 a "default" e) (hbd : Text1 b "default" t)
    (hk : (∀ x ∈ kids, ¬ "keys".toList <+: x.1 ∧ x.1 ≠ "attrs".toList) ∧ (∀ x ∈ l, ¬ "keys".toList <+: x.1 ∧ x.1 ≠ "attrs".toList) ∧
      (∀ x ∈ a, ¬ "keys".toList <+: x.1) ∧ ∀ x ∈ b, ¬ "keys".toList <+: x.1)
    (h : fileReader order name o (.grp a kids) = .ok sigs) :
    ∃ nx : List (Text × Attrs × Kids), (nx.map Prod.fst).Nodup ∧
      (∀ u b l, (u, b, l) ∈ nx ↔ ∃ p qa qk, At false a kids p (.grp b l) qa qk ∧ u = pathText p ∧ NXdata b ∧ pathText [e, t] <:+: u) ∧
      List.Forall₂ (fun x s => (∀ p t, x.1 = pathText p → (∀ k ∈ p, '/' ∉ k) → p.getLast? = some t → Title t s) ∧ ∀ v, SignalOf x.2.1 x.2.2 v → s.data = v) nx sigs := by
  obtain ⟨dk, dp, mk, om, nx, hdf, s1, h1, h2, _, h4, h5, hf, hr⟩ := reader_parts h
  obtain ⟨d1, d2, d3⟩ : (kids.map Prod.fst).Nodup ∧ (∀ e ∈ kids, '/' ∉ e.1 ∧ e.1 ≠ []) ∧ ∀ e ∈ kids, Distinct e.2 := by
    cases d with | grp x y z => exact ⟨x, y, z⟩
  obtain ⟨f1, f2⟩ : (∀ e ∈ l, '/' ∉ e.1 ∧ e.1 ≠ []) ∧ ∀ e ∈ l, Distinct e.2 := by
    have := d3 _ he
    cases this with | grp x y z => exact ⟨y, z⟩
  have hte := (d2 _ he).2
  have htt := (f1 _ hd).2
  obtain ⟨v1, w1, w2⟩ := text_parse ha
  obtain ⟨v2, w3, w4⟩ := text_parse hbd
  obtain ⟨g1, g2, g3⟩ := attrs_get na.1 hk.2.2.1 w1
  obtain ⟨g4, g5, g6⟩ := attrs_get na.2 hk.2.2.2 w3
  have h4' : loadKids o.skipArrays kids (attrsTree a) = .ok om := h4
  obtain ⟨ed, e1, e2⟩ := load_mem hb d1 (fun x hx => (hk.1 x hx).1) he h4'
  have o1 : getKw "attrs".toList om = some (.dict g1) := by
    rw [load_kids (fun x hx => ?_) h4', g2]
    rw [fix_plain (hk.1 x hx).1]; exact Ne.symm (hk.1 x hx).2
  have o2 : getKw "attrs".toList ed = some (.dict g4) := by
    rw [load_kids (fun x hx => ?_) e1, g5]
    rw [fix_plain (hk.2.1 x hx).1]; exact Ne.symm (hk.2.1 x hx).2
  have hpath : defaultPath om = .ok (some (pathText [e, t])) := by
    have q1 : defaultEntry om = some e := by
      unfold defaultEntry
      show ((getKw "attrs".toList om >>= R.sub "default") >>= fun x => x.text?) = some e
      rw [o1]
      show ((getKw "default".toList g1) >>= fun x => x.text?) = some e
      rw [g3, w2]; rfl
    unfold defaultPath
    rw [q1]
    cases e with
    | nil => exact absurd rfl hte
    | cons c0 e0 =>
      dsimp only
      rw [e2]
      dsimp only
      rw [show R.sub "attrs" (.dict ed) = getKw "attrs".toList ed from rfl, o2]
      dsimp only
      rw [show R.sub "default" (.dict g4) = getKw "default".toList g4 from rfl, g6, w4]
      cases t with
      | nil => exact absurd rfl htt
      | cons c1 t0 => simp [pathText, R.text?]
  obtain ⟨nx0, hdf0, hfd⟩ : ∃ nx0 hdf0, findData order (.grp a kids) none false none = .ok (nx0, hdf0) := by
    unfold selected at h5
    simp only [bind, Except.bind, pure, Except.pure, hu, if_true] at h5
    cases hq : findData order (.grp a kids) none false none with
    | error e => rw [hq] at h5; cases h5
    | ok r => exact ⟨r.1, r.2, rfl⟩
  obtain ⟨n1, _, n3, _, n5, _⟩ := find_parts ho d (fun e => by cases e) hfd
  have hat : At false a kids [e, t] (.grp c q) b l := .step he (.same _) (.last hd (.same _))
  obtain ⟨x0, m0, m1, _⟩ := n5 _ _ _ _ _ hat hc (.inl ⟨rfl, rfl⟩)
  have hsel : selected order (.grp a kids) om dk dp o.hardlinksOnly true = .ok (nx0.filter fun x => contains (pathText [e, t]) x.path, []) := by
    unfold selected
    simp only [bind, Except.bind, pure, Except.pure, if_true]
    rw [hfd]
    dsimp only
    rw [hpath]
    dsimp only
    rw [if_neg]
    intro hh
    rw [Bool.and_eq_true, List.isEmpty_iff] at hh
    have : x0 ∈ nx0.filter fun x => contains (pathText [e, t]) x.path :=
      List.mem_filter.2 ⟨m0, by unfold contains; rw [m1]; exact decide_eq_true (List.infix_refl _)⟩
    rw [hh.1] at this
    cases this
  rw [hu, hsel] at h5
  obtain ⟨rfl, rfl⟩ := Prod.mk.inj (Except.ok.inj h5)
  have hs : sigs = s1 := by
    rcases hr with ⟨_, rfl⟩ | ⟨_, b', rfl, hb'⟩
    · rfl
    · cases hb'; simp
  subst hs
  refine ⟨(nx0.filter fun x => contains (pathText [e, t]) x.path).map fun x => (x.path, x.attrs, x.kids), ?_, ?_, ?_⟩
  · rw [List.map_map]
    exact n1.sublist (List.filter_sublist.map _)
  · intro u b l
    constructor
    · intro hm
      obtain ⟨x, hx, ex⟩ := List.mem_map.1 hm
      obtain ⟨hx, hct⟩ := List.mem_filter.1 hx
      obtain ⟨hnx, w, p, m, qa, qk, ha, e1, e2, e3, e4⟩ := n3 x hx
      rcases e4 with ⟨_, rfl, e5, _⟩ | ⟨e5, _⟩
      · cases ex; exact ⟨p, qa, qk, ha, e1, e5, of_decide_eq_true hct⟩
      · rw [hnx] at e5; cases e5
    · rintro ⟨p, qa, qk, ha, rfl, hb, w⟩
      obtain ⟨x, hx, e1, _, _, e4⟩ := n5 p b l qa qk ha hb (.inl ⟨rfl, rfl⟩)
      rcases e4 with ⟨_, e5, _, _⟩ | ⟨_, e5, _⟩
      · obtain ⟨rfl, rfl⟩ := Node.grp.inj e5
        exact List.mem_map.2 ⟨x, List.mem_filter.2 ⟨hx, by unfold contains; rw [e1]; exact decide_eq_true w⟩, by rw [e1]⟩
      · cases e5
  · rw [List.forall₂_map_left_iff]
    refine hf.imp fun x s hs => ?_
    obtain ⟨t1, ⟨la, t2, _⟩, _⟩ := nexus_signal hs
    refine ⟨fun p t ep hp hl => ?_, fun v hv => ?_⟩
    · have : titleOf x.path = t := by
        have ep : x.path = pathText p := ep
        rw [ep]; exact title_path hp hl
      rw [← this]; exact t1
    · exact signal_data hv t2

/-- **C122.** Keys that are neither a text nor a list of texts are refused. -/
theorem C122_reject {order : List Found → List Found} {name : Text} {o : Opts} {f : Node} (h : o.datasetKey = .other) : fileReader order name o f = .error .valueError := by
  unfold fileReader
  rw [h]
  rfl

/-- **C122.** `list_datasets_in_file` gives the paths of the NXdata groups and of the datasets with at least two elements, each once: all, or those with one of the keys in them. -/
theorem C122_list {order : List Found → List Found} (ho : ∀ l, (order l).Perm l) {a : Attrs} {kids : Kids} {key : Arg} {keys : Option (List Text)} {hard : Bool} {nx hdf : List Text}
    (d : Distinct (.grp a kids)) (hh : hard = true → NoTarget (.grp a kids)) (hk : Keys key keys) (h : listDatasets order (.grp a kids) key hard = .ok (nx, hdf)) :
    nx.Nodup ∧ hdf.Nodup ∧ (∀ t, t ∈ nx ↔ ∃ p b l qa qk, At hard a kids p (.grp b l) qa qk ∧ t = pathText p ∧ NXdata b ∧ Wanted keys none t) ∧
      ∀ t, t ∈ hdf ↔ ∃ p b v qa qk, At hard a kids p (.ds b v) qa qk ∧ t = pathText p ∧ 2 ≤ v.size ∧ Wanted keys none t := by
  unfold listDatasets at h
  simp only [bind, Except.bind, pure, Except.pure] at h
  cases h1 : checkKeys key with
  | error e => rw [h1] at h; cases h
  | ok dk =>
    rw [h1] at h
    dsimp only at h
    obtain rfl := check_keys hk h1
    cases h2 : findData order (.grp a kids) dk hard none with
    | error e => rw [h2] at h; cases h
    | ok r =>
      obtain ⟨nx0, hdf0⟩ := r
      rw [h2] at h
      obtain ⟨rfl, rfl⟩ := Prod.mk.inj (Except.ok.inj h)
      obtain ⟨n1, n2, n3, n4, n5, n6⟩ := find_parts ho d hh h2
      refine ⟨n1, n2, fun t => ⟨fun hm => ?_, ?_⟩, fun t => ⟨fun hm => ?_, ?_⟩⟩
      · obtain ⟨x, hx, rfl⟩ := List.mem_map.1 hm
        obtain ⟨hnx, w, p, m, qa, qk, ha, e1, e2, e3, e4⟩ := n3 x hx
        rcases e4 with ⟨_, rfl, e5, _⟩ | ⟨e5, _⟩
        · exact ⟨p, _, _, qa, qk, ha, e1, e5, w⟩
        · rw [hnx] at e5; cases e5
      · rintro ⟨p, b, l, qa, qk, ha, rfl, hb, w⟩
        obtain ⟨x, hx, e1, _⟩ := n5 p b l qa qk ha hb w
        exact List.mem_map.2 ⟨x, hx, e1⟩
      · obtain ⟨x, hx, rfl⟩ := List.mem_map.1 hm
        obtain ⟨hnx, w, p, m, qa, qk, ha, e1, e2, e3, e4⟩ := n4 x hx
        rcases e4 with ⟨e5, _⟩ | ⟨_, rfl, e6, _⟩
        · rw [hnx] at e5; cases e5
        · exact ⟨p, _, _, qa, qk, ha, e1, e6, w⟩
      · rintro ⟨p, b, v, qa, qk, ha, rfl, hv, w⟩
        obtain ⟨x, hx, e1, _⟩ := n6 p b v qa qk ha hv w
        exact List.mem_map.2 ⟨x, hx, e1⟩

end Verif.Props.Nexus
