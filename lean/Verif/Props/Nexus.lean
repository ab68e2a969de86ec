import Verif.Lemmas.Nexus
import Mathlib.Data.List.TakeWhile
import Mathlib.Data.List.Forall2
/-! C122: which signals are read from a NeXus file. -/
namespace Verif.Props.Nexus
open Verif Verif.Nexus

/-! ### Paths -/

theorem split_pathText : ∀ {p : List Text}, (∀ k ∈ p, '/' ∉ k) → splitChar '/' (pathText p) = [] :: p
  | [], _ => rfl
  | [k], h => by
    have : pathText [k] = '/' :: k := by simp [pathText]
    rw [this, splitChar, if_pos rfl, splitChar_none (h k List.mem_cons_self)]
  | k :: k' :: p, h => by
    have ih := split_pathText (p := k' :: p) fun x hx => h x (List.mem_cons_of_mem _ hx)
    have e : pathText (k :: k' :: p) = '/' :: (k ++ '/' :: (k' ++ pathText p)) := by simp [pathText]
    have e' : pathText (k' :: p) = '/' :: (k' ++ pathText p) := by simp [pathText]
    rw [e', splitChar, if_pos rfl] at ih
    rw [e, splitChar, if_pos rfl, splitChar_append (h k List.mem_cons_self)]
    rw [List.cons.inj ih |>.2]

theorem textSplit_path {p : List Text} (h : ∀ k ∈ p, '/' ∉ k) : textSplit ['/'] (pathText p) = p := by
  unfold textSplit
  simp only [List.foldl_cons, List.foldl_nil, List.flatMap_cons, List.flatMap_nil, List.append_nil]
  rw [split_pathText h, List.erase_cons_head]

theorem title_path {p : List Text} {t : Text} (h : ∀ k ∈ p, '/' ∉ k) (ht : p.getLast? = some t) : titleOf (pathText p) = t := by
  unfold titleOf
  rw [textSplit_path h, List.getLastD_eq_getLast?, ht]; rfl

theorem distinct_behind {hard : Bool} {n m : Node} (b : Behind hard n m) (d : Distinct n) : Distinct m := by
  induction b with
  | same => exact d
  | soft _ _ ih => cases d with | soft d => exact ih d
  | ext _ ih => cases d with | ext d => exact ih d

theorem at_names {hard : Bool} {a qa : Attrs} {l qk : Kids} {p : List Text} {m : Node} (h : At hard a l p m qa qk) (d : Distinct (.grp a l)) :
    (∀ k ∈ p, '/' ∉ k ∧ k ≠ []) ∧ p ≠ [] := by
  induction h with
  | last h b =>
    cases d with
    | grp d1 d2 d3 => exact ⟨fun k hk => by rw [List.mem_singleton.1 hk]; exact d2 _ h, by simp⟩
  | step h b r ih =>
    cases d with
    | grp d1 d2 d3 =>
      refine ⟨fun k hk => ?_, by simp⟩
      rcases List.mem_cons.1 hk with rfl | hk
      · exact d2 _ h
      · exact (ih (distinct_behind b (d3 _ h))).1 k hk

/-! ### The search -/

theorem matching_iff {keys paths : Option (List Text)} (hne : ¬ (keys = none ∧ paths = none)) (x : Found) : matching keys paths x = true ↔ Wanted keys paths x.path := by
  unfold matching Wanted contains
  cases keys <;> cases paths <;> simp at hne ⊢ <;> (try (constructor <;> rintro ⟨y, hy, e⟩ <;> exact ⟨y, hy, e⟩))

/-- NXdata and datasets among all that is found. -/
theorem find_parts {order : List Found → List Found} (ho : ∀ l, (order l).Perm l) {a : Attrs} {kids : Kids} {keys paths : Option (List Text)} {hard : Bool}
    {nx hdf : List Found} (d : Distinct (.grp a kids)) (hh : hard = true → NoTarget (.grp a kids)) (h : findData order (.grp a kids) keys hard paths = .ok (nx, hdf)) :
    (nx.map (·.path)).Nodup ∧ (hdf.map (·.path)).Nodup ∧
    (∀ x ∈ nx, x.nx = true ∧ Wanted keys paths x.path ∧ ∃ p m qa qk, At hard a kids p m qa qk ∧ Describes x (pathText p) m qa qk) ∧
    (∀ x ∈ hdf, x.nx = false ∧ Wanted keys paths x.path ∧ ∃ p m qa qk, At hard a kids p m qa qk ∧ Describes x (pathText p) m qa qk) ∧
    (∀ p b l qa qk, At hard a kids p (.grp b l) qa qk → NXdata b → Wanted keys paths (pathText p) → ∃ x ∈ nx, Describes x (pathText p) (.grp b l) qa qk) ∧
    (∀ p b v qa qk, At hard a kids p (.ds b v) qa qk → 2 ≤ v.size → Wanted keys paths (pathText p) → ∃ x ∈ hdf, Describes x (pathText p) (.ds b v) qa qk) := by
  unfold findData at h
  simp only [bind, Except.bind, pure, Except.pure, rootOf] at h
  cases hl : findKids hard a kids [] kids with
  | error e => rw [hl] at h; cases h
  | ok l =>
    rw [hl] at h
    dsimp only at h
    have e0 : (if hard = true then l.filter (·.direct) else l) = l.filter (keep hard) := by
      cases hard with
      | false =>
        have : keep false = fun _ => true := rfl
        rw [this, if_neg (by decide), List.filter_true]
      | true =>
        have : keep true = (·.direct) := by funext x; simp [keep]
        rw [this, if_pos rfl]
    rw [e0] at h
    have hd := d
    cases hd with
    | grp d1 d2 d3 =>
      have hn : hard = true → getKw "target".toList a = none ∧ ∀ e ∈ kids, NoTarget e.2 := fun e => by
        cases hh e with | grp h r => exact ⟨h, r⟩
      have ki := kids_iff kids (pk := kids) (root := []) (fun e => (hn e).1) (fun e => (hn e).2) hl
      have nd := kids_nodup kids d1 (fun e he => (d2 e he).1) d3 hl
      have snd : ∀ x ∈ l.filter (keep hard), ∃ p m qa qk, At hard a kids p m qa qk ∧ Describes x (pathText p) m qa qk := by
        intro x hx
        obtain ⟨hx, hk⟩ := List.mem_filter.1 hx
        obtain ⟨k, n, p, m, qa, qk, hm, f, ds⟩ := ki.1 x hx hk
        exact ⟨k :: p, m, qa, qk, at_last.2 ⟨n, hm, f⟩, ds⟩
      have cmp : ∀ p m qa qk, At hard a kids p m qa qk → (∃ a l, m = .grp a l ∧ NXdata a) ∨ (∃ a v, m = .ds a v ∧ 2 ≤ v.size) →
          ∃ x ∈ l.filter (keep hard), Describes x (pathText p) m qa qk := by
        intro p m qa qk ha hm
        cases p with
        | nil => cases ha
        | cons k p =>
          obtain ⟨n, hn, f⟩ := at_last.1 ha
          obtain ⟨x, hx, hk, dx⟩ := ki.2 k n p m qa qk hn f hm
          exact ⟨x, List.mem_filter.2 ⟨hx, hk⟩, dx⟩
      have nd' := nd.sublist ((List.filter_sublist (p := keep hard) (l := l)).map (·.path))
      have nxd : ∀ {x : Found} {t m qa qk}, Describes x t m qa qk → (∃ b l, m = .grp b l) → x.nx = true := by
        rintro x t m qa qk ⟨_, _, _, e | e⟩ ⟨b, l, rfl⟩
        · exact e.1
        · cases e.2.1
      have nxf : ∀ {x : Found} {t m qa qk}, Describes x t m qa qk → (∃ b v, m = .ds b v) → x.nx = false := by
        rintro x t m qa qk ⟨_, _, _, e | e⟩ ⟨b, l, rfl⟩
        · cases e.2.1
        · exact e.1
      by_cases hc : keys = none ∧ paths = none
      · rw [if_pos hc] at h
        obtain ⟨rfl, rfl⟩ := Prod.mk.inj (Except.ok.inj h)
        have w : ∀ t, Wanted keys paths t := fun t => .inl hc
        refine ⟨nd'.sublist (List.filter_sublist.map _), nd'.sublist (List.filter_sublist.map _), ?_, ?_, ?_, ?_⟩
        · intro x hx
          obtain ⟨hx, hnx⟩ := List.mem_filter.1 hx
          exact ⟨hnx, w _, snd x hx⟩
        · intro x hx
          obtain ⟨hx, hnx⟩ := List.mem_filter.1 hx
          exact ⟨by simpa using hnx, w _, snd x hx⟩
        · intro p b l' qa qk ha hb _
          obtain ⟨x, hx, dx⟩ := cmp p _ qa qk ha (.inl ⟨b, l', rfl, hb⟩)
          exact ⟨x, List.mem_filter.2 ⟨hx, nxd dx ⟨_, _, rfl⟩⟩, dx⟩
        · intro p b v qa qk ha hb _
          obtain ⟨x, hx, dx⟩ := cmp p _ qa qk ha (.inr ⟨b, v, rfl, hb⟩)
          exact ⟨x, List.mem_filter.2 ⟨hx, by rw [nxf dx ⟨_, _, rfl⟩]; rfl⟩, dx⟩
      · rw [if_neg hc] at h
        obtain ⟨rfl, rfl⟩ := Prod.mk.inj (Except.ok.inj h)
        refine ⟨((ho _).map _).nodup_iff.2 ((nd'.sublist (List.filter_sublist.map _)).sublist (List.filter_sublist.map _)),
          ((ho _).map _).nodup_iff.2 ((nd'.sublist (List.filter_sublist.map _)).sublist (List.filter_sublist.map _)), ?_, ?_, ?_, ?_⟩
        · intro x hx
          obtain ⟨hx, hm⟩ := List.mem_filter.1 ((ho _).mem_iff.1 hx)
          obtain ⟨hx, hnx⟩ := List.mem_filter.1 hx
          exact ⟨hnx, (matching_iff hc x).1 hm, snd x hx⟩
        · intro x hx
          obtain ⟨hx, hm⟩ := List.mem_filter.1 ((ho _).mem_iff.1 hx)
          obtain ⟨hx, hnx⟩ := List.mem_filter.1 hx
          exact ⟨by simpa using hnx, (matching_iff hc x).1 hm, snd x hx⟩
        · intro p b l' qa qk ha hb w
          obtain ⟨x, hx, dx⟩ := cmp p _ qa qk ha (.inl ⟨b, l', rfl, hb⟩)
          refine ⟨x, (ho _).mem_iff.2 (List.mem_filter.2 ⟨List.mem_filter.2 ⟨hx, nxd dx ⟨_, _, rfl⟩⟩, (matching_iff hc x).2 ?_⟩), dx⟩
          rw [dx.1]; exact w
        · intro p b v qa qk ha hb w
          obtain ⟨x, hx, dx⟩ := cmp p _ qa qk ha (.inr ⟨b, v, rfl, hb⟩)
          refine ⟨x, (ho _).mem_iff.2 (List.mem_filter.2 ⟨List.mem_filter.2 ⟨hx, by rw [nxf dx ⟨_, _, rfl⟩]; rfl⟩, (matching_iff hc x).2 ?_⟩), dx⟩
          rw [dx.1]; exact w

/-! ### The data -/

theorem behind_dsOf {n : Node} {b : Attrs} {v : Leaf} (h : Behind false n (.ds b v)) : dsOf n = .ok (b, v) := by
  generalize hm : Node.ds b v = m at h
  induction h with
  | same => subst hm; rfl
  | soft _ _ ih => rw [dsOf]; exact ih hm
  | ext _ ih => rw [dsOf]; exact ih hm

theorem not_int {t : Text} (h : ∃ c ∈ t, isDigit c = false ∧ c ≠ '+' ∧ c ≠ '-' ∧ c ≠ '_' ∧ isSpace c = false) : ∃ e, intLit t = .error e := by
  obtain ⟨c, hc, hd, hp, hm, _, hs⟩ := h
  have hc' : c ∈ stripBy isSpace t := by
    unfold stripBy rstripBy lstripBy
    have m1 : ∀ {l : Text}, c ∈ l → c ∈ l.dropWhile isSpace := by
      intro l hl
      have : c ∈ l.takeWhile isSpace ++ l.dropWhile isSpace := by rw [List.takeWhile_append_dropWhile]; exact hl
      rcases List.mem_append.1 this with h | h
      · have := List.mem_takeWhile_imp h
        rw [hs] at this; cases this
      · exact h
    exact List.mem_reverse.2 (m1 (List.mem_reverse.2 (m1 hc)))
  unfold intLit
  dsimp only
  generalize stripBy isSpace t = s at hc'
  have key : ∀ l : Text, c ∈ l → ¬ (l ≠ [] ∧ l.all isDigit = true) := by
    intro l hl ⟨_, ha⟩
    have := List.all_eq_true.1 ha c hl
    rw [hd] at this; cases this
  split
  · rename_i r
    rcases List.mem_cons.1 hc' with e | e
    · exact absurd e hm
    · exact ⟨_, if_neg (key _ e)⟩
  · rename_i r
    rcases List.mem_cons.1 hc' with e | e
    · exact absurd e hp
    · exact ⟨_, if_neg (key _ e)⟩
  · exact ⟨_, if_neg (key _ hc')⟩

/-- The dataset with the numbers of the signal. -/
theorem signal_data {x : Found} {v v' : Leaf} {l : List Ax} (s : SignalOf x.attrs x.kids v) (h : nexusSignal x = .ok (v', l)) : v' = v := by
  unfold nexusSignal at h
  simp only [bind, Except.bind, pure, Except.pure] at h
  have key : ∃ k b, dataKey x.attrs x.kids = .ok k ∧ kid k x.kids = .ok (b, v) := by
    cases s with
    | text hs hn m b =>
      rename_i t n b'
      obtain ⟨e, he⟩ := not_int hn
      refine ⟨t, b', ?_, ?_⟩
      · unfold dataKey
        rcases hs with hs | hs <;> rw [hs] <;> simp only [he]
      · unfold kid; rw [m]; exact behind_dsOf b
    | number hs m b =>
      rename_i q n b'
      refine ⟨"data".toList, b', ?_, ?_⟩
      · unfold dataKey; rw [hs]
      · unfold kid; rw [m]; exact behind_dsOf b
  obtain ⟨k, b, h1, h2⟩ := key
  rw [h1] at h; dsimp only at h
  rw [h2] at h; dsimp only at h
  cases h3 : navList v.shape x.attrs x.kids with
  | error e => rw [h3] at h; cases h
  | ok l1 =>
    rw [h3] at h; dsimp only at h
    cases h4 : interpret (if l1.isEmpty = true then plainAxes v.shape else l1) ((getKw "interpretation".toList x.attrs).map parseAttr) with
    | error e => rw [h4] at h; cases h
    | ok l2 =>
      rw [h4] at h
      exact (Prod.mk.inj (Except.ok.inj h)).1.symm

/-! ### The reader -/

theorem mapM_forall {α β : Type} {f : α → Py β} : ∀ {l : List α} {r : List β}, l.mapM f = .ok r → List.Forall₂ (fun a b => f a = .ok b) l r
  | [], r, h => by
    rw [List.mapM_nil] at h
    cases h; exact .nil
  | a :: l, r, h => by
    rw [List.mapM_cons] at h
    simp only [bind, Except.bind, pure, Except.pure] at h
    cases h1 : f a with
    | error e => rw [h1] at h; cases h
    | ok b =>
      rw [h1] at h; dsimp only at h
      cases h2 : l.mapM f with
      | error e => rw [h2] at h; cases h
      | ok r' =>
        rw [h2] at h
        cases h
        exact .cons h1 (mapM_forall h2)

theorem check_keys {x : Arg} {k k' : Option (List Text)} (h : Keys x k) (hc : checkKeys x = .ok k') : k' = k := by
  cases x with
  | none => rw [show k = none from h]; exact (Except.ok.inj hc).symm
  | one t => rw [show k = some [t] from h]; exact (Except.ok.inj hc).symm
  | many l => rw [show k = some l from h]; exact (Except.ok.inj hc).symm
  | other => cases h

theorem title_update (d : Dict) (t : Text) : ∃ g, getKw "General".toList (update d (titleMeta t)) = some (.dict g) ∧ getKw "title".toList g = some (.str t) := by
  refine ⟨[("title".toList, .str t)], ?_, rfl⟩
  show getKw "General".toList (setKw "General".toList (R.dict [("title".toList, R.str t)]) d) = _
  rw [getKw_setKw, if_pos rfl]

theorem reader_parts {order : List Found → List Found} {name : Text} {o : Opts} {f : Node} {sigs : List Sig} (h : fileReader order name o f = .ok sigs) :
    ∃ dk dp mk om nx hdf s1, checkKeys o.datasetKey = .ok dk ∧ checkKeys o.datasetPath = .ok dp ∧ checkKeys o.metadataKey = .ok mk ∧
      loadMeta o.skipArrays f = .ok om ∧ selected order f om dk dp o.hardlinksOnly o.useDefault = .ok (nx, hdf) ∧
      List.Forall₂ (fun x s => readNexus om mk x = .ok s) nx s1 ∧
      ((o.nxdataOnly = true ∧ sigs = s1) ∨ (o.nxdataOnly = false ∧ ∃ b, sigs = s1 ++ b.flatten ∧ List.Forall₂ (fun x s => readHdf name x = .ok s) hdf b)) := by
  unfold fileReader at h
  simp only [bind, Except.bind, pure, Except.pure] at h
  cases h1 : checkKeys o.datasetKey with
  | error e => rw [h1] at h; cases h
  | ok dk =>
    rw [h1] at h; dsimp only at h
    cases h2 : checkKeys o.datasetPath with
    | error e => rw [h2] at h; cases h
    | ok dp =>
      rw [h2] at h; dsimp only at h
      cases h3 : checkKeys o.metadataKey with
      | error e => rw [h3] at h; cases h
      | ok mk =>
        rw [h3] at h; dsimp only at h
        cases h4 : loadMeta o.skipArrays f with
        | error e => rw [h4] at h; cases h
        | ok om =>
          rw [h4] at h; dsimp only at h
          cases h5 : selected order f om dk dp o.hardlinksOnly o.useDefault with
          | error e => rw [h5] at h; cases h
          | ok r =>
            obtain ⟨nx, hdf⟩ := r
            rw [h5] at h; dsimp only at h
            cases h6 : nx.mapM (readNexus om mk) with
            | error e => rw [h6] at h; cases h
            | ok s1 =>
              rw [h6] at h; dsimp only at h
              refine ⟨dk, dp, mk, om, nx, hdf, s1, rfl, rfl, rfl, rfl, h5, mapM_forall h6, ?_⟩
              cases hn : o.nxdataOnly with
              | true => rw [hn] at h; exact .inl ⟨rfl, (Except.ok.inj h).symm⟩
              | false =>
                rw [hn] at h
                simp only [Bool.false_eq_true, if_false] at h
                cases h7 : hdf.mapM (readHdf name) with
                | error e => rw [h7] at h; cases h
                | ok b => rw [h7] at h; exact .inr ⟨rfl, b, (Except.ok.inj h).symm, mapM_forall h7⟩

/-- NXdata as signals. -/
theorem nexus_signal {om : Dict} {mk : Option (List Text)} {x : Found} {s : Sig} (h : readNexus om mk x = .ok s) :
    Title (titleOf x.path) s ∧ (∃ l, nexusSignal x = .ok (s.data, l) ∧ s.axes = l) ∧ ∃ y, extraOf om mk x.path = .ok y ∧ s.original = y.original ∧
      s.learning = y.learning ∧ s.metadata = update (y.metadata.getD []) (titleMeta (titleOf x.path)) := by
  unfold readNexus at h
  simp only [bind, Except.bind, pure, Except.pure] at h
  cases h1 : nexusSignal x with
  | error e => rw [h1] at h; cases h
  | ok r =>
    obtain ⟨v, l⟩ := r
    rw [h1] at h; dsimp only at h
    cases h2 : extraOf om mk x.path with
    | error e => rw [h2] at h; cases h
    | ok y =>
      rw [h2] at h
      obtain rfl := Except.ok.inj h
      exact ⟨title_update _ _, ⟨l, rfl, rfl⟩, y, rfl, rfl, rfl, rfl⟩

theorem selected_all {order : List Found → List Found} {f : Node} {om : Dict} {dk dp : Option (List Text)} {hard : Bool} :
    selected order f om dk dp hard false = findData order f dk hard dp := rfl

/-- The title of a dataset: its path without the first slash and with underscores. -/
def underscores (p : List Text) : Text := joinWith ['_'] p

theorem drop_slash : ∀ {p : List Text}, (∀ k ∈ p, '/' ∉ k) → hdfTitle (pathText p) = underscores p := by
  have hk : ∀ {k : Text}, '/' ∉ k → k.map (fun c => if c = '/' then '_' else c) = k := by
    intro k h
    conv_rhs => rw [← List.map_id k]
    apply List.map_congr_left
    intro c hc
    rw [if_neg (by rintro rfl; exact h hc)]; rfl
  have key : ∀ {k : Text} {p : List Text}, (∀ x ∈ k :: p, '/' ∉ x) → (k ++ pathText p).map (fun c => if c = '/' then '_' else c) = joinWith ['_'] (k :: p) := by
    intro k p
    induction p generalizing k with
    | nil => intro h; simpa [pathText, joinWith] using hk (h k List.mem_cons_self)
    | cons k' p ih =>
      intro h
      have := ih (k := k') fun x hx => h x (List.mem_cons_of_mem _ hx)
      rw [pathText_cons, List.map_append, hk (h k List.mem_cons_self)]
      rw [joinWith, ← this]
      simp
  intro p h
  cases p with
  | nil => rfl
  | cons k p =>
    unfold hdfTitle underscores
    rw [pathText_cons]
    exact key h

/-- A dataset that its group names as its signal. -/
def OwnSignal (qa : Attrs) (p : List Text) : Prop :=
  ∃ t, p.getLast? = some t ∧ (getKw "signal".toList qa = some (.bytes t) ∨ getKw "signal".toList qa = some (.str t))

theorem isSignal_iff {x : Found} {p : List Text} (hp : ∀ k ∈ p, '/' ∉ k) (hne : p ≠ []) (e : x.path = pathText p) : isSignal x = true ↔ OwnSignal x.parentAttrs p := by
  obtain ⟨t, ht⟩ : ∃ t, p.getLast? = some t := by
    cases h : p.getLast? with
    | none => exact absurd (List.getLast?_eq_none_iff.1 h) hne
    | some t => exact ⟨t, rfl⟩
  have el : (splitChar '/' x.path).getLastD [] = t := by
    rw [e, split_pathText hp, List.getLastD_eq_getLast?, List.getLast?_cons, ht]; rfl
  unfold isSignal OwnSignal
  rw [el, ht]
  constructor
  · intro h
    refine ⟨t, rfl, ?_⟩
    cases hg : getKw "signal".toList x.parentAttrs with
    | none => rw [hg] at h; cases h
    | some v =>
      rw [hg] at h
      cases v <;> first
        | (have := of_decide_eq_true h; subst this; first | exact .inl rfl | exact .inr rfl)
        | cases h
  · rintro ⟨t', e', h⟩
    obtain rfl := Option.some.inj e'
    rcases h with h | h <;> rw [h] <;> simp

theorem hdf_signal {name : Text} {x : Found} {ss : List Sig} (h : readHdf name x = .ok ss) :
    (isSignal x = true ∧ ss = []) ∨ (isSignal x = false ∧ ∃ s, ss = [s] ∧ s.data = x.value ∧ Title (hdfTitle x.path) s ∧ s.original = [] ∧
      navList x.value.shape x.parentAttrs x.parentKids = .ok s.axes) := by
  unfold readHdf hdfSignal at h
  cases hs : isSignal x with
  | true =>
    rw [hs] at h
    exact .inl ⟨rfl, (Except.ok.inj h).symm⟩
  | false =>
    rw [hs] at h
    simp only [Bool.false_eq_true, if_false, bind, Except.bind, pure, Except.pure] at h
    cases hn : navList x.value.shape x.parentAttrs x.parentKids with
    | error e => rw [hn] at h; cases h
    | ok l =>
      rw [hn] at h
      obtain rfl := Except.ok.inj h
      exact .inr ⟨rfl, _, rfl, rfl, ⟨_, rfl, rfl⟩, rfl, rfl⟩

/-- **C122 (partial).** The signals are those of the NXdata groups, each once, and after them those of the datasets with at least two
elements that are not the signal of their group, each once; all of them, or those that are asked for by a path or a part of it, and with
`hardlinks_only` those that are not behind soft links. Titles are the name of the group or the path of the dataset, the data those of
the file. Without attributes `target`, which are taken for links of the children of a group. -/
theorem C122_signals_partial {order : List Found → List Found} (ho : ∀ l, (order l).Perm l) {name : Text} {o : Opts} {a : Attrs} {kids : Kids} {sigs : List Sig}
    {keys paths : Option (List Text)} (d : Distinct (.grp a kids)) (hu : o.useDefault = false) (hh : o.hardlinksOnly = true → NoTarget (.grp a kids))
    (hk : Keys o.datasetKey keys) (hp : Keys o.datasetPath paths) (h : fileReader order name o (.grp a kids) = .ok sigs) :
    ∃ (nx : List (Text × Attrs × Kids)) (hdf : List (Text × Leaf)) (s1 s2 : List Sig), sigs = s1 ++ s2 ∧
      (nx.map Prod.fst).Nodup ∧ (hdf.map Prod.fst).Nodup ∧
      (∀ t b l, (t, b, l) ∈ nx ↔ ∃ p qa qk, At o.hardlinksOnly a kids p (.grp b l) qa qk ∧ t = pathText p ∧ NXdata b ∧ Wanted keys paths t) ∧
      (∀ t v, (t, v) ∈ hdf ↔ o.nxdataOnly = false ∧ ∃ p b qa qk, At o.hardlinksOnly a kids p (.ds b v) qa qk ∧ t = pathText p ∧ 2 ≤ v.size ∧
        ¬ OwnSignal qa p ∧ Wanted keys paths t) ∧
      List.Forall₂ (fun x s => (∀ p t, x.1 = pathText p → (∀ k ∈ p, '/' ∉ k) → p.getLast? = some t → Title t s) ∧ ∀ v, SignalOf x.2.1 x.2.2 v → s.data = v) nx s1 ∧
      List.Forall₂ (fun x s => (∀ p, x.1 = pathText p → (∀ k ∈ p, '/' ∉ k) → Title (joinWith ['_'] p) s) ∧ s.data = x.2) hdf s2 := by
  obtain ⟨dk, dp, mk, om, nx, hdf, s1, h1, h2, _, _, h5, hf, hr⟩ := reader_parts h
  obtain rfl := check_keys hk h1
  obtain rfl := check_keys hp h2
  rw [hu, selected_all] at h5
  obtain ⟨n1, n2, n3, n4, n5, n6⟩ := find_parts ho d hh h5
  have key : ∃ (hd : List Found) (s2 : List Sig), sigs = s1 ++ s2 ∧ hd = (if o.nxdataOnly then [] else hdf.filter fun x => !isSignal x) ∧
      List.Forall₂ (fun x s => s.data = x.value ∧ Title (hdfTitle x.path) s) hd s2 := by
    rcases hr with ⟨ho, rfl⟩ | ⟨ho, b, rfl, hb⟩
    · exact ⟨[], [], by simp, by rw [ho]; rfl, .nil⟩
    · refine ⟨_, b.flatten, rfl, rfl, ?_⟩
      rw [ho]
      simp only [Bool.false_eq_true, if_false]
      clear n2 n4 n6 h5 h
      induction hb with
      | nil => exact .nil
      | @cons x ss l l' hx _ ih =>
        rcases hdf_signal hx with ⟨e, rfl⟩ | ⟨e, s, rfl, e1, e2, _⟩
        · rw [List.filter_cons_of_neg (by rw [e]; simp)]; simpa using ih
        · rw [List.filter_cons_of_pos (by rw [e]; rfl)]
          exact .cons ⟨e1, e2⟩ ih
  obtain ⟨hd, s2, e, ehd, hfd⟩ := key
  have nm : ∀ {p m qa qk}, At o.hardlinksOnly a kids p m qa qk → (∀ k ∈ p, '/' ∉ k) ∧ p ≠ [] := fun ha =>
    ⟨fun k hk => ((at_names ha d).1 k hk).1, (at_names ha d).2⟩
  refine ⟨nx.map fun x => (x.path, x.attrs, x.kids), hd.map fun x => (x.path, x.value), s1, s2, e, by simpa [Function.comp_def] using n1, ?_, ?_, ?_, ?_, ?_⟩
  · rw [List.map_map]
    show (hd.map (·.path)).Nodup
    rw [ehd]
    split
    · exact List.nodup_nil
    · exact n2.sublist (List.filter_sublist.map _)
  · intro t b l
    constructor
    · intro hm
      obtain ⟨x, hx, ex⟩ := List.mem_map.1 hm
      obtain ⟨hnx, w, p, m, qa, qk, ha, e1, e2, e3, e4⟩ := n3 x hx
      rcases e4 with ⟨_, rfl, e5, _⟩ | ⟨e5, _⟩
      · cases ex; exact ⟨p, qa, qk, ha, e1, e5, w⟩
      · rw [hnx] at e5; cases e5
    · rintro ⟨p, qa, qk, ha, rfl, hb, w⟩
      obtain ⟨x, hx, e1, _, _, e4⟩ := n5 p b l qa qk ha hb w
      rcases e4 with ⟨_, e5, _, _⟩ | ⟨_, e5, _⟩
      · obtain ⟨rfl, rfl⟩ := Node.grp.inj e5
        exact List.mem_map.2 ⟨x, hx, by rw [e1]⟩
      · cases e5
  · intro t v
    constructor
    · intro hm
      obtain ⟨x, hx, ex⟩ := List.mem_map.1 hm
      rw [ehd] at hx
      cases hn : o.nxdataOnly with
      | true => rw [hn] at hx; exact absurd hx List.not_mem_nil
      | false =>
        rw [hn] at hx
        obtain ⟨hx, hi⟩ := List.mem_filter.1 hx
        obtain ⟨hnx, w, p, m, qa, qk, ha, e1, e2, e3, e4⟩ := n4 x hx
        rcases e4 with ⟨e5, _⟩ | ⟨_, rfl, e6, _⟩
        · rw [hnx] at e5; cases e5
        · cases ex
          refine ⟨rfl, p, x.attrs, qa, qk, ha, e1, e6, fun ho => ?_, w⟩
          rw [← e2] at ho
          rw [(isSignal_iff (nm ha).1 (nm ha).2 e1).2 ho] at hi
          cases hi
    · rintro ⟨hn, p, b, qa, qk, ha, rfl, hv, hs, w⟩
      obtain ⟨x, hx, e1, e2, e3, e4⟩ := n6 p b v qa qk ha hv w
      rcases e4 with ⟨_, e5, _, _⟩ | ⟨_, e5, _⟩
      · cases e5
      · obtain ⟨rfl, rfl⟩ := Node.ds.inj e5
        refine List.mem_map.2 ⟨x, ?_, by rw [e1]⟩
        rw [ehd, hn]
        refine List.mem_filter.2 ⟨hx, ?_⟩
        cases hi : isSignal x with
        | false => rfl
        | true => exact absurd (e2 ▸ (isSignal_iff (nm ha).1 (nm ha).2 e1).1 hi) hs
  · rw [List.forall₂_map_left_iff]
    refine hf.imp fun x s hx => ?_
    obtain ⟨t1, ⟨l, t2, _⟩, _⟩ := nexus_signal hx
    refine ⟨fun p t ep hs hl => ?_, fun v hv => signal_data hv t2⟩
    dsimp only at ep
    rw [ep, title_path hs hl] at t1
    exact t1
  · rw [List.forall₂_map_left_iff]
    refine hfd.imp fun x s hx => ⟨fun p ep hs => ?_, hx.1⟩
    have t1 := hx.2
    dsimp only at ep
    rw [ep, drop_slash hs] at t1
    exact t1

end Verif.Props.Nexus
