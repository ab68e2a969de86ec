import Verif.Lemmas.NexusMeta
/-! C125: metadata that are written to a NeXus file come back. -/
namespace Verif.Props.Nexus
open Verif Verif.Nexus

/-! ### The three parts -/

/-- What can be read of the parts so far. -/
structure Parts (P : Text → R → Prop) (aux : Kids) : Prop where
  sorted : Sorted aux
  target : ∀ e ∈ aux, NoTarget e.2
  load : ∀ e ∈ aux, ∃ w, P e.1 w ∧ ∀ t, loadKid false (fixKey e.1) e.2 t = .ok (setKw e.1 w t)

theorem part_step {P : Text → R → Prop} {skip : List Text} {key : String} {d : MDict} {aux aux' : Kids} (hf : fixKey key.toList = key.toList) (g : Good (.dict d)) (p : Parts P aux)
    (hk : getKw key.toList aux = none) (hP : ∀ r, SameTop skip d r → P key.toList (.dict r)) (h : writePart skip key d aux = .ok aux') :
    Parts P aux' ∧ (∀ k, k ≠ key.toList → getKw k aux' = getKw k aux) ∧ (d = [] → getKw key.toList aux' = none) ∧ (d ≠ [] → ∃ n, getKw key.toList aux' = some n) := by
  by_cases hd : d = []
  · unfold writePart at h
    rw [if_pos hd] at h
    obtain rfl := Except.ok.inj h
    exact ⟨p, fun _ _ => rfl, fun _ => hk, fun h => absurd hd h⟩
  · obtain ⟨l, h1, h2, r, h3, h4⟩ := part_ok (skip := skip) g hd hk
    rw [h1] at h
    obtain rfl := Except.ok.inj h
    refine ⟨⟨put_sorted p.sorted, ?_, ?_⟩, ?_, fun h => absurd h hd, fun _ => ⟨_, by rw [getKw_put, if_pos rfl]⟩⟩
    · exact put_all (P := NoTarget) h2 p.target
    · intro e he
      rcases mem_put he with rfl | he
      · exact ⟨_, hP r h3, fun t => by dsimp only; rw [hf]; exact h4 _ t⟩
      · exact p.load e he
    · intro k hne
      rw [getKw_put, if_neg hne]

/-- What the parts are. -/
def PartOf (o : WOpts) (s : WSig) (k : Text) (w : R) : Prop :=
  (k = "learning_results".toList → ∃ r, w = .dict r ∧ SameTop [] s.learning r) ∧
  (k = "original_metadata".toList → ∃ r, w = .dict r ∧ SameTop o.skip s.original r) ∧
  (k = "hyperspy_metadata".toList → ∃ r, w = .dict r ∧ SameTop [] s.metadata r)

/-- The parts in the dictionary that is read. -/
structure Read (o : WOpts) (s : WSig) (xd : Dict) : Prop where
  learning : s.learning ≠ [] → ∃ r, getKw "learning_results".toList xd = some (.dict r) ∧ SameTop [] s.learning r
  nolearning : s.learning = [] → getKw "learning_results".toList xd = none
  original : o.saveOriginal = true → s.original ≠ [] → ∃ r, getKw "original_metadata".toList xd = some (.dict r) ∧ SameTop o.skip s.original r
  nooriginal : o.saveOriginal = false ∨ s.original = [] → getKw "original_metadata".toList xd = none
  metadata : s.metadata ≠ [] → ∃ r, getKw "hyperspy_metadata".toList xd = some (.dict r) ∧ SameTop [] s.metadata r
  nometadata : s.metadata = [] → getKw "hyperspy_metadata".toList xd = none

theorem parts_read {o : WOpts} {s : WSig} {xk : Kids} (g : GoodMeta s) (h : writeParts o s [] = .ok xk) :
    NoTarget (.grp entryAttrs xk) ∧ ∃ xd, Read o s xd ∧ ∀ k t, loadKid false k (.grp entryAttrs xk) t = .ok (setKw k (.dict xd) t) := by
  unfold writeParts at h
  simp only [bind, Except.bind, pure, Except.pure] at h
  have p0 : Parts (PartOf o s) [] := ⟨List.Pairwise.nil, fun e he => absurd he List.not_mem_nil, fun e he => absurd he List.not_mem_nil⟩
  cases h1 : writePart [] "learning_results" s.learning [] with
  | error e => rw [h1] at h; cases h
  | ok a1 =>
    rw [h1] at h
    dsimp only at h
    obtain ⟨p1, q1, q2, q3⟩ := part_step (by decide) g.learning p0 rfl
      (fun r hr => ⟨fun _ => ⟨r, rfl, hr⟩, (fun e => absurd e (by decide)), (fun e => absurd e (by decide))⟩) h1
    have hstep : ∃ a2, (if o.saveOriginal = true then writePart o.skip "original_metadata" s.original a1 else Except.ok a1) = .ok a2 ∧
        writePart [] "hyperspy_metadata" s.metadata a2 = .ok xk := by
      split at h
      · rename_i hso
        rw [if_pos hso]
        cases h2 : writePart o.skip "original_metadata" s.original a1 with
        | error e => rw [h2] at h; cases h
        | ok a2 => rw [h2] at h; exact ⟨a2, rfl, h⟩
      · rename_i hso
        rw [if_neg hso]
        exact ⟨a1, rfl, h⟩
    obtain ⟨a2, h2, h3⟩ := hstep
    have e0 : getKw "original_metadata".toList a1 = none := q1 _ (by decide)
    have hmid : Parts (PartOf o s) a2 ∧ (∀ k, k ≠ "original_metadata".toList → getKw k a2 = getKw k a1) ∧
        (o.saveOriginal = false ∨ s.original = [] → getKw "original_metadata".toList a2 = none) ∧
        (o.saveOriginal = true → s.original ≠ [] → ∃ n, getKw "original_metadata".toList a2 = some n) := by
      cases hso : o.saveOriginal with
      | true =>
        rw [if_pos hso] at h2
        obtain ⟨p2, r1, r2, r3⟩ := part_step (by decide) g.original p1 e0
          (fun r hr => ⟨(fun e => absurd e (by decide)), fun _ => ⟨r, rfl, hr⟩, (fun e => absurd e (by decide))⟩) h2
        refine ⟨p2, r1, ?_, fun _ => r3⟩
        rintro (h | h)
        · cases h
        · exact r2 h
      | false =>
        rw [if_neg (by rw [hso]; simp)] at h2
        obtain rfl := Except.ok.inj h2
        exact ⟨p1, fun _ _ => rfl, fun _ => e0, fun h => by cases h⟩
    obtain ⟨p2, r1, r2, r3⟩ := hmid
    have e1 : getKw "hyperspy_metadata".toList a2 = none := by rw [r1 _ (by decide), q1 _ (by decide)]; rfl
    obtain ⟨p3, t1, t2, t3⟩ := part_step (by decide) g.metadata p2 e1
      (fun r hr => ⟨(fun e => absurd e (by decide)), (fun e => absurd e (by decide)), fun _ => ⟨r, rfl, hr⟩⟩) h3
    refine ⟨.grp (by decide) p3.target, ?_⟩
    obtain ⟨xd, x1, x2, x3⟩ := load_list (P := PartOf o s) (t := attrsTree entryAttrs) (sorted_nodup p3.sorted) p3.load
    refine ⟨xd, ⟨?_, ?_, ?_, ?_, ?_, ?_⟩, fun k t => ?_⟩
    · intro hl
      obtain ⟨n, hn⟩ := q3 hl
      obtain ⟨w, w1, w2⟩ := x2 "learning_results".toList n (by rw [t1 _ (by decide), r1 _ (by decide), hn])
      obtain ⟨r, rfl, hr⟩ := w1.1 rfl
      exact ⟨r, w2, hr⟩
    · intro hl
      rw [x3 _ (by rw [t1 _ (by decide), r1 _ (by decide), q2 hl])]; decide
    · intro hso hl
      obtain ⟨n, hn⟩ := r3 hso hl
      obtain ⟨w, w1, w2⟩ := x2 "original_metadata".toList n (by rw [t1 _ (by decide), hn])
      obtain ⟨r, rfl, hr⟩ := w1.2.1 rfl
      exact ⟨r, w2, hr⟩
    · intro hl
      rw [x3 _ (by rw [t1 _ (by decide), r2 hl])]; decide
    · intro hl
      obtain ⟨n, hn⟩ := t3 hl
      obtain ⟨w, w1, w2⟩ := x2 "hyperspy_metadata".toList n hn
      obtain ⟨r, rfl, hr⟩ := w1.2.2 rfl
      exact ⟨r, w2, hr⟩
    · intro hl
      rw [x3 _ (t2 hl)]; decide
    · rw [loadKid]
      have : isData entryAttrs = false := by decide
      rw [this]
      simp only [Bool.false_eq_true, if_false]
      rw [x1]

/-! ### An entry -/

theorem attrsTree_other {a : Attrs} {k : Text} (h : k ≠ "attrs".toList) : getKw k (attrsTree a) = none := by
  unfold attrsTree
  split
  · rfl
  · rw [getKw, if_neg (Ne.symm h)]; rfl

theorem entry_read {o : WOpts} {s : WSig} {name : Text} {n : Node} (g : GoodMeta s) (e : Entry o s name n) :
    NoTarget n ∧ ∃ ed xd, Read o s xd ∧ getKw "auxiliary".toList ed = some (.dict xd) ∧ ∀ k t, loadKid false k n t = .ok (setKw k (.dict ed) t) := by
  obtain ⟨_, a, ga, gk, xk, kids, rfl, h1, h2, _, h3, h4, h5, _, h6⟩ := e
  obtain ⟨t1, xd, x1, x2⟩ := parts_read g h5
  have ngs : NoTarget (.grp ga gk) := .grp h3.target fun e he => by
    obtain ⟨b, v, e1⟩ := h4 e he
    rw [e1]; exact .ds _ _
  have skip : ∀ k t, loadKid false k (.grp ga gk) t = .ok t := fun k t => by
    rw [loadKid, (isData_iff ga).2 (.inl h3.nx)]; rfl
  have fx : fixKey "auxiliary".toList = "auxiliary".toList := by decide
  have fin : loadKids false kids (attrsTree a) = .ok (setKw "auxiliary".toList (.dict xd) (attrsTree a)) := by
    rcases h6 with rfl | rfl
    · rw [loadKids, skip]
      dsimp only
      rw [loadKids, fx, x2]
      dsimp only
      rw [loadKids]
    · rw [loadKids, fx, x2]
      dsimp only
      rw [loadKids, skip]
      dsimp only
      rw [loadKids]
  refine ⟨.grp h2 ?_, setKw "auxiliary".toList (.dict xd) (attrsTree a), xd, x1, by rw [getKw_setKw, if_pos rfl], fun k t => ?_⟩
  · rcases h6 with rfl | rfl
    · intro e he
      rcases List.mem_cons.1 he with rfl | he
      · exact ngs
      · rw [List.mem_singleton.1 he]; exact t1
    · intro e he
      rcases List.mem_cons.1 he with rfl | he
      · exact t1
      · rw [List.mem_singleton.1 he]; exact ngs
  · rw [loadKid, h1]
    simp only [Bool.false_eq_true, if_false]
    rw [fin]

/-! ### The signal -/

theorem withAxes_id {d : Dict} (h : ∀ e ∈ d, ¬ "_sig_".toList <+: e.1) : withAxes d = d := by
  unfold withAxes
  conv_rhs => rw [← List.map_id d]
  apply List.map_congr_left
  rintro ⟨k, v⟩ he
  have hs : starts "_sig_" k = false := by
    cases hs : starts "_sig_" k with
    | true => exact absurd (starts_iff.1 hs) (h _ he)
    | false => rfl
  cases v with
  | dict v => dsimp only; rw [hs]; rfl
  | _ => rfl

theorem mem_getKw {α : Type} {k : Text} {v : α} : ∀ {d : List (Text × α)}, (k, v) ∈ d → getKw k d ≠ none
  | (k', v') :: d, h => by
    rw [getKw]
    split
    · intro e; cases e
    · rename_i hne
      rcases List.mem_cons.1 h with e | h
      · exact absurd (Prod.mk.inj e).1.symm hne
      · exact mem_getKw h

theorem original_read {skip : List Text} {d : MDict} {r : Dict} (h : SameTop skip d r) (hm : ∀ e ∈ d, ¬ "_sig_".toList <+: e.1) : withAxes r = r := by
  refine withAxes_id fun e he hs => ?_
  obtain ⟨k, v⟩ := e
  have hk : k ≠ "attrs".toList := by rintro rfl; exact absurd hs (by show ¬ "_sig_".toList <+: "attrs".toList; decide)
  cases hd : getKw k d with
  | none => exact mem_getKw he (h.absent k hk (.inl hd))
  | some w => exact hm _ (getKw_in hd) hs

theorem extra_read {o : WOpts} {s : WSig} {om : Dict} {k : Text} {ed xd : Dict} {path : Text} (g : GoodMeta s) (hp : (textSplit ['/'] path).headD [] = k)
    (hk : getKw k om = some (.dict ed)) (hx : getKw "auxiliary".toList ed = some (.dict xd)) (hr : Read o s xd) (hf : fromHyperspy om = true) :
    ∃ y, extraOf om none path = .ok y ∧ (o.saveOriginal = true → s.original ≠ [] → SameTop o.skip s.original y.original) ∧
      y.learning = getKw "learning_results".toList xd ∧ ((s.metadata = [] ∧ y.metadata = none) ∨ ∃ r, y.metadata = some r ∧ SameTop [] s.metadata r) := by
  have h0 : ∃ y0, hyperOriginal none (.dict xd) ed = .ok y0 ∧ (o.saveOriginal = true → s.original ≠ [] → SameTop o.skip s.original y0) := by
    unfold hyperOriginal
    rw [show R.sub "original_metadata" (.dict xd) = getKw "original_metadata".toList xd from rfl]
    cases hso : o.saveOriginal with
    | false =>
      rw [hr.nooriginal (.inl hso)]
      exact ⟨_, rfl, fun h => by cases h⟩
    | true =>
      by_cases ho : s.original = []
      · rw [hr.nooriginal (.inr ho)]
        exact ⟨_, rfl, fun _ h => absurd ho h⟩
      · obtain ⟨r, r1, r2⟩ := hr.original hso ho
        rw [r1]
        refine ⟨_, rfl, fun _ _ => ?_⟩
        rw [original_read r2 g.marked]; exact r2
  obtain ⟨y0, e0, s0⟩ := h0
  unfold extraOf
  rw [hp, hk]
  simp only [bind, Except.bind, pure, Except.pure, hf, if_true]
  unfold hyperParts
  rw [show R.sub "auxiliary" (.dict ed) = getKw "auxiliary".toList ed from rfl, hx]
  simp only [bind, Except.bind, pure, Except.pure]
  rw [e0]
  dsimp only
  rw [show R.sub "hyperspy_metadata" (.dict xd) = getKw "hyperspy_metadata".toList xd from rfl]
  by_cases hm : s.metadata = []
  · rw [hr.nometadata hm]
    exact ⟨_, rfl, s0, rfl, .inl ⟨hm, rfl⟩⟩
  · obtain ⟨r, r1, r2⟩ := hr.metadata hm
    rw [r1]
    exact ⟨_, rfl, s0, rfl, .inr ⟨r, rfl, r2⟩⟩

theorem update_title {d : Dict} {t k : Text} (h : k ≠ "General".toList) : getKw k (update d (titleMeta t)) = getKw k d := by
  show getKw k (setKw _ _ d) = _
  rw [getKw_setKw, if_neg h]

theorem signal_read {o : WOpts} {s : WSig} {name : Text} {om : Dict} {k : Text} {n : Node} {x : Found} (g : GoodMeta s) (e : Entry o s name n) (hks : '/' ∉ k) (hk0 : k ≠ [])
    (hns : '/' ∉ name) (hk : ∀ ed, (∀ k t, loadKid false k n t = .ok (setKw k (.dict ed) t)) → getKw k om = some (.dict ed)) (hf : fromHyperspy om = true)
    (hp : x.path = pathText [k, name]) (st : Stored s.data s.axes x.attrs x.kids) : ∃ sig, readNexus om none x = .ok sig ∧ MetaBack o s sig := by
  obtain ⟨_, ed, xd, x1, x2, x3⟩ := entry_read g e
  have hpath : (textSplit ['/'] x.path).headD [] = k := by
    rw [hp, textSplit_path]
    · rfl
    · intro y hy
      rcases List.mem_cons.1 hy with rfl | hy
      · exact hks
      · rw [List.mem_singleton.1 hy]; exact hns
  obtain ⟨y, y1, y2, y3, y4⟩ := extra_read g hpath (hk ed x3) x2 x1 hf
  refine ⟨⟨s.data, s.axes.mapIdx comesBack, update (y.metadata.getD []) (titleMeta (titleOf x.path)), y.original, y.learning⟩, ?_, ?_⟩
  · unfold readNexus
    simp only [bind, Except.bind, pure, Except.pure]
    rw [stored_signal e.good st, y1]
  · obtain ⟨g1, g2, _⟩ := good_dict g.metadata
    refine ⟨?_, ?_, y2, ?_, ?_⟩
    · intro k v hne hv
      show ∃ w, getKw k (update (y.metadata.getD []) _) = some w ∧ _
      rw [update_title hne]
      rcases y4 with ⟨e1, _⟩ | ⟨r, e1, e2⟩
      · rw [e1] at hv; cases hv
      · rw [e1]
        obtain ⟨w, hw⟩ := e2.there k v hv List.not_mem_nil
        exact ⟨w, hw, e2.values k v w (g2 _ (getKw_in hv)).2.2.2.1 hv hw⟩
    · intro k hne hna hv
      show getKw k (update (y.metadata.getD []) _) = none
      rw [update_title hne]
      rcases y4 with ⟨_, e1⟩ | ⟨r, e1, e2⟩
      · rw [e1]; rfl
      · rw [e1]; exact e2.absent k hna (.inl hv)
    · intro hl
      show ∃ r, y.learning = _ ∧ _
      rw [y3]
      exact x1.learning hl
    · intro hl
      show y.learning = _
      rw [y3]
      exact x1.nolearning hl

/-! ### The file -/

theorem entries_sorted {o : WOpts} : ∀ {l : List WSig} {i : Nat} {g g' : Kids}, Sorted g → writeEntries o i l g = .ok g' → Sorted g'
  | [], i, g, g', hs, h => by
    rw [writeEntries] at h
    obtain rfl := Except.ok.inj h
    exact hs
  | s :: l, i, g, g', hs, h => by
    rw [writeEntries] at h
    cases hw : writeEntry o i s with
    | error e => rw [hw] at h; cases h
    | ok n =>
      rw [hw] at h
      exact entries_sorted (put_sorted hs) h

theorem entries_names {o : WOpts} : ∀ {l : List WSig} {i : Nat} {g g' : Kids}, (∀ e ∈ g, ∃ j, e.1 = entryName j) → writeEntries o i l g = .ok g' → ∀ e ∈ g', ∃ j, e.1 = entryName j
  | [], i, g, g', hs, h => by
    rw [writeEntries] at h
    obtain rfl := Except.ok.inj h
    exact hs
  | s :: l, i, g, g', hs, h => by
    rw [writeEntries] at h
    cases hw : writeEntry o i s with
    | error e => rw [hw] at h; cases h
    | ok n =>
      rw [hw] at h
      refine entries_names (fun e he => ?_) h
      rcases mem_put he with rfl | he
      · exact ⟨i, rfl⟩
      · exact hs e he

theorem forall₂_right {α β : Type} {R : α → β → Prop} {P : α → Prop} : ∀ {l : List α} {m : List β}, List.Forall₂ R l m → (∀ x ∈ l, P x) → ∀ y ∈ m, ∃ x, P x ∧ R x y
  | _, _, .nil, _, y, hy => by cases hy
  | _, _, .cons h hl, hp, y, hy => by
    rcases List.mem_cons.1 hy with rfl | hy
    · exact ⟨_, hp _ List.mem_cons_self, h⟩
    · exact forall₂_right hl (fun x hx => hp x (List.mem_cons_of_mem _ hx)) y hy

theorem mapM_ok {α β : Type} {f : α → Py β} {P : α → β → Prop} : ∀ {l : List α}, (∀ x ∈ l, ∃ y, f x = .ok y ∧ P x y) → ∃ r, l.mapM f = .ok r ∧ List.Forall₂ P l r
  | [], _ => ⟨[], rfl, .nil⟩
  | x :: l, h => by
    obtain ⟨y, h1, h2⟩ := h x List.mem_cons_self
    obtain ⟨r, h3, h4⟩ := mapM_ok (l := l) fun x hx => h x (List.mem_cons_of_mem _ hx)
    refine ⟨y :: r, ?_, .cons h2 h4⟩
    rw [List.mapM_cons]
    simp only [bind, Except.bind, pure, Except.pure]
    rw [h1, h3]

/-- **C125 (partial).** Up to nine signals that were written can be read, and their metadata come back: all entries but `General`, the original metadata without the entries
that are skipped, and the learning results. Texts have no trailing space, arrays have two elements or more, and no name is `attrs`, `value` or begins with `keys`. -/
theorem C125_metadata_partial {order : List Found → List Found} {file : Text} {o : WOpts} {l : List WSig} {names : List Text} {f : Node} (h9 : l.length ≤ 9)
    (hn : names.length = l.length) (hg : ∀ (i : Nat) s t, l[i]? = some s → names[i]? = some t → GoodSignal i s t) (hm : ∀ s ∈ l, GoodMeta s) (hw : fileWriter o l = .ok f) :
    ∃ sigs, fileReader order file { nxdataOnly := true } f = .ok sigs ∧ List.Forall₂ (MetaBack o) l sigs := by
  unfold fileWriter at hw
  simp only [bind, Except.bind, pure, Except.pure] at hw
  cases he : writeEntries o 0 l [] with
  | error e => rw [he] at hw; cases hw
  | ok kids =>
    rw [he] at hw
    dsimp only at hw
    generalize hat : (if o.useDefault = true then setKw "default".toList (Leaf.str "entry1".toList)
      [("file_format".toList, Leaf.str "nexus".toList), ("file_writer".toList, Leaf.str "hyperspy_nexus_v3".toList)]
      else [("file_format".toList, Leaf.str "nexus".toList), ("file_writer".toList, Leaf.str "hyperspy_nexus_v3".toList)]) = a at hw
    have ht : getKw "target".toList a = none := by rw [← hat]; split <;> rfl
    have hfw : ∃ ad, getKw "attrs".toList (attrsTree a) = some (.dict ad) ∧ getKw "file_writer".toList ad = some (.str "hyperspy_nexus_v3".toList) := by
      rw [← hat]; split <;> exact ⟨_, rfl, rfl⟩
    obtain rfl := Except.ok.inj hw
    have hf := entries_ok (done := []) (by omega) hn (fun j s t h1 h2 => by rw [Nat.zero_add]; exact hg j s t h1 h2) (fun e he => absurd he List.not_mem_nil) .nil he
    rw [List.nil_append] at hf
    have hso : Sorted kids := entries_sorted List.Pairwise.nil he
    have hna := entries_names (fun e he => absurd he List.not_mem_nil) he
    have hz : ∀ z ∈ l.zip names, GoodMeta z.1 := fun z hz => hm _ (List.of_mem_zip (a := z.1) (b := z.2) hz).1
    have hall := forall₂_right hf hz
    have hfix : ∀ j, fixKey (entryName j) = entryName j := fun j => rfl
    obtain ⟨om, o1, o2, o3⟩ := load_list (P := fun k w => ∃ n ed, (k, n) ∈ kids ∧ w = .dict ed ∧ ∀ k t, loadKid false k n t = .ok (setKw k (.dict ed) t)) (t := attrsTree a)
      (sorted_nodup hso) fun e he => by
        obtain ⟨z, z1, z2, _⟩ := hall e he
        obtain ⟨_, ed, xd, _, _, x3⟩ := entry_read z1 z2
        refine ⟨.dict ed, ⟨e.2, ed, he, rfl, x3⟩, fun t => ?_⟩
        obtain ⟨j, hj⟩ := hna e he
        rw [hj, hfix]; exact x3 _ t
    have hload : loadMeta false (.grp a kids) = .ok om := o1
    have hattr : fromHyperspy om = true := by
      obtain ⟨ad, a1, a2⟩ := hfw
      have : getKw "attrs".toList om = some (.dict ad) := by
        rw [o3, a1]
        cases hga : getKw "attrs".toList kids with
        | none => rfl
        | some n =>
          obtain ⟨j, hj⟩ := hna _ (getKw_in hga)
          cases hj
      unfold fromHyperspy
      show (match (getKw "attrs".toList om) >>= R.sub "file_writer" with | some (.str t) => _ | _ => _) = _
      rw [this]
      show (match (getKw "file_writer".toList ad) with | some (.str t) => _ | _ => _) = _
      rw [a2]
      rfl
    obtain ⟨fr, hfr⟩ := kids_find (hard := false) (pa := a) (pk := kids) (root := []) (l := kids) fun e he path => by
      obtain ⟨z, z1, z2, _⟩ := hall e he
      exact find_ok (entry_read z1 z2).1 a kids none path ht
    have hfe := find_entries ht hf hfr
    have hsel : selected order (.grp a kids) om none none false false = .ok (fr.filter (·.nx), fr.filter fun x => !x.nx) := by
      unfold selected findData
      simp only [bind, Except.bind, pure, Except.pure, rootOf]
      rw [hfr]
      rfl
    have key : ∃ sigs, (fr.filter (·.nx)).mapM (readNexus om none) = .ok sigs ∧ List.Forall₂ (MetaBack o) l sigs := by
      have hle : (l.zip names).map Prod.fst = l := List.map_fst_zip (by omega)
      clear hg h9 hn hm hf he hsel hfr
      generalize fr.filter (·.nx) = xs at hfe ⊢
      generalize l.zip names = z at hfe hle hz
      subst hle
      induction hfe with
      | nil => exact ⟨[], rfl, .nil⟩
      | @cons z0 x zs xs h1 _ ih =>
        obtain ⟨⟨k, n, m1, m2, m3, m4⟩, m5, m6, _⟩ := h1
        obtain ⟨sigs, s1, s2⟩ := ih (fun z h => hz z (List.mem_cons_of_mem _ h))
        have hk0 : k ≠ [] := by
          obtain ⟨j, hj⟩ := hna _ m1
          intro e
          have : entryName j = [] := by rw [← hj]; exact e
          cases this
        obtain ⟨sig, q1, q2⟩ := signal_read (om := om) (hz _ List.mem_cons_self) m2 m3 hk0 m5 (fun ed hed => by
          obtain ⟨w, ⟨n', ed', e1, e2, e3⟩, e4⟩ := o2 k n (getKw_mem (sorted_nodup hso) m1)
          have hnn : n' = n := by
            have h1 := getKw_mem (sorted_nodup hso) m1
            rw [getKw_mem (sorted_nodup hso) e1] at h1
            exact Option.some.inj h1
          subst hnn
          have := (e3 k []).symm.trans (hed k [])
          have : setKw k (R.dict ed') [] = setKw k (R.dict ed) [] := Except.ok.inj this
          have : [(k, R.dict ed')] = [(k, R.dict ed)] := this
          rw [e4, e2]
          injection this with e5
          injection e5 with _ e6
          rw [e6]) hattr m4 m6
        refine ⟨sig :: sigs, ?_, .cons q2 s2⟩
        rw [List.mapM_cons]
        simp only [bind, Except.bind, pure, Except.pure]
        rw [q1, s1]
    obtain ⟨sigs, s1, s2⟩ := key
    refine ⟨sigs, ?_, s2⟩
    unfold fileReader
    simp only [bind, Except.bind, pure, Except.pure, checkKeys]
    rw [hload]
    dsimp only
    rw [hsel]
    dsimp only
    rw [s1]
    rfl

end Verif.Props.Nexus
