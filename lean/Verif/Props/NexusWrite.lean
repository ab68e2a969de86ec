import Verif.Lemmas.NexusFile
/-! C124: signals that are written to a NeXus file come back. -/
namespace Verif.Props.Nexus
open Verif Verif.Nexus

/-! ### Names -/

theorem map_slash {t : Text} (h : '/' ∉ t) : t.map (fun c => if c = '/' then '_' else c) = t := by
  conv_rhs => rw [← List.map_id t]
  apply List.map_congr_left
  intro c hc
  rw [if_neg (by rintro rfl; exact h hc)]; rfl

theorem starts_iff {s : String} {t : Text} : starts s t = true ↔ s.toList <+: t := List.isPrefixOf_iff_prefix

theorem repr_digits (n : Nat) : ∀ c ∈ (toString n).toList, c.isDigit = true := by
  intro c hc
  have h : (toString n).toList = Nat.toDigits 10 n := by
    show (Nat.repr n).toList = _
    unfold Nat.repr
    exact String.toList_ofList
  rw [h] at hc
  exact Nat.isDigit_of_mem_toDigits (by decide) (by decide) hc

theorem digit_no_slash {t : Text} (h : ∀ c ∈ t, c.isDigit = true) : '/' ∉ t := fun hm => absurd (h _ hm) (by decide)

theorem name_of {i : Nat} {md : MDict} {name : Text} (h : NameOf i md name) : (∃ t, titleIn md = .ok t ∧ signalName i t = name) ∧ '/' ∉ name ∧ name ≠ [] ∧ name ≠ "auxiliary".toList := by
  cases h with
  | @title g t hg ht hs h0 hu ha =>
    refine ⟨⟨name, ?_, ?_⟩, hs, h0.1, ha⟩
    · unfold titleIn; rw [hg]; dsimp only; rw [ht]
    · unfold signalName
      rw [if_neg h0.1]
      dsimp only
      rw [map_slash hs]
      cases hst : starts "__" name with
      | true => exact absurd (starts_iff.1 hst) hu
      | false => rfl
  | unnamed h =>
    have hs : '/' ∉ "unnamed__".toList ++ (toString i).toList := by
      intro hm
      rcases List.mem_append.1 hm with hm | hm
      · revert hm; decide
      · exact digit_no_slash (repr_digits i) hm
    refine ⟨⟨[], ?_, ?_⟩, hs, ?_, ?_⟩
    · unfold titleIn
      rcases h with h | ⟨g, h, hg⟩
      · rw [h]
      · rw [h]; dsimp only; rw [hg]
    · unfold signalName
      rw [if_pos rfl]
      dsimp only
      rw [map_slash hs]
      rfl
    · intro e; cases e
    · intro e; cases e

/-! ### One entry -/

/-- The attributes of an entry. -/
def entryAttrs : Attrs := [("NX_class".toList, .bytes "NXentry".toList)]

/-- The group in which a signal is. -/
structure Entry (o : WOpts) (s : WSig) (name : Text) (n : Node) : Prop where
  good : GoodAxes s.data.shape s.axes
  entry : ∃ a ga gk xk kids, n = .grp a kids ∧ isData a = false ∧ getKw "target".toList a = none ∧ getKw "auxiliary".toList a = none ∧ Stored s.data s.axes ga gk ∧
    (∀ e ∈ gk, ∃ a v, e.2 = .ds a v) ∧ writeParts o s [] = .ok xk ∧ Dataless (.grp entryAttrs xk) ∧
    (kids = [(name, .grp ga gk), ("auxiliary".toList, .grp entryAttrs xk)] ∨ kids = [("auxiliary".toList, .grp entryAttrs xk), (name, .grp ga gk)])

theorem before_asymm : ∀ {s t : Text}, before s t = true → before t s = false
  | [], [], h => by cases h
  | [], _ :: _, _ => rfl
  | _ :: _, [], h => by cases h
  | a :: s, b :: t, h => by
    unfold before at h ⊢
    by_cases e : a = b
    · subst e
      rw [if_pos rfl] at h ⊢
      exact before_asymm h
    · rw [if_neg e] at h
      rw [if_neg (Ne.symm e)]
      have := of_decide_eq_true h
      exact decide_eq_false (by omega)

theorem put_aux {k k' : Text} {n m m' : Node} (h : k ≠ k') : put k' m' (put k n [(k', m)]) = [(k, n), (k', m')] ∨ put k' m' (put k n [(k', m)]) = [(k', m'), (k, n)] := by
  have h0 : put k n [(k', m)] = if before k k' then [(k, n), (k', m)] else [(k', m), (k, n)] := by
    rw [put, if_neg (Ne.symm h)]
    rfl
  rw [h0]
  split
  · rename_i hb
    rw [put, if_neg h, before_asymm hb]
    exact .inl (by rw [put, if_pos rfl]; rfl)
  · exact .inr (by rw [put, if_pos rfl])

theorem entry_ok {o : WOpts} {i : Nat} {s : WSig} {name : Text} {n : Node} (g : GoodSignal i s name) (h : writeEntry o i s = .ok n) : Entry o s name n := by
  obtain ⟨⟨t, h1, h2⟩, hs, h0, ha⟩ := name_of g.name
  unfold writeEntry at h
  simp only [bind, Except.bind, pure, Except.pure] at h
  rw [h1] at h
  dsimp only at h
  rw [h2, if_neg h0] at h
  have e1 : groupIn name [("auxiliary".toList, Node.grp [("NX_class".toList, Leaf.bytes "NXentry".toList)] [])] = ([], []) := by
    unfold groupIn
    rw [getKw, if_neg (Ne.symm ha)]
    rfl
  rw [e1] at h
  dsimp only at h
  cases hw : writeSignal s.data s.axes [] [] with
  | error e => rw [hw] at h; cases h
  | ok r =>
    obtain ⟨ga, gk⟩ := r
    rw [hw] at h
    dsimp only at h
    have e2 : groupIn "auxiliary".toList (put name (.grp ga gk) [("auxiliary".toList, Node.grp [("NX_class".toList, Leaf.bytes "NXentry".toList)] [])]) =
        ([("NX_class".toList, Leaf.bytes "NXentry".toList)], []) := by
      unfold groupIn
      rw [getKw_put, if_neg (Ne.symm ha)]
      rfl
    rw [e2] at h
    dsimp only at h
    cases hp : writeParts o s [] with
    | error e => rw [hp] at h; cases h
    | ok xk =>
      rw [hp] at h
      dsimp only at h
      have hd : ∀ w ∈ s.axes, w.name ≠ some "data".toList := by
        intro w hw e
        obtain ⟨j, hj⟩ := List.mem_iff_getElem?.1 hw
        have hlt := (List.getElem?_eq_some_iff.1 hj).1
        rw [g.axes.length] at hlt
        have := g.axes.axes j w _ hj (List.getElem?_eq_getElem hlt)
        cases this with
        | named hk _ _ _ => exact hk.2 (Option.some.inj e)
        | unnamed _ => cases e
      have st := signal_stored g.axes.length g.axes.names hd hw
      have hdl := parts_dataless g.metadata g.original g.learning (fun e he => absurd he List.not_mem_nil) hp
      generalize hat : (if i = 0 ∧ o.useDefault = true then setKw "default".toList (Leaf.str name) [("NX_class".toList, Leaf.bytes "NXentry".toList)]
        else [("NX_class".toList, Leaf.bytes "NXentry".toList)]) = at0 at h
      obtain rfl := Except.ok.inj h
      refine ⟨g.axes, _, ga, gk, xk, _, rfl, ?_, ?_, ?_, st, signal_ds hw, hp, .grp ?_ hdl, put_aux (Ne.symm ha.symm)⟩
      · rw [← hat]; split <;> rfl
      · rw [← hat]; split <;> rfl
      · rw [← hat]; split <;> rfl
      · decide

/-! ### The search -/

theorem find_pair {pa : Attrs} {pk : Kids} {root : Text} {e1 e2 : Text × Node} {r : List Found} (h : findKids false pa pk root [e1, e2] = .ok r) :
    ∃ r1 r2, findKid false pa pk none (root ++ '/' :: e1.1) e1.2 = .ok r1 ∧ findKid false pa pk none (root ++ '/' :: e2.1) e2.2 = .ok r2 ∧ r = r1 ++ r2 := by
  obtain ⟨k1, n1⟩ := e1
  obtain ⟨k2, n2⟩ := e2
  rw [findKids] at h
  cases h1 : findKid false pa pk none (root ++ '/' :: k1) n1 with
  | error e => rw [h1] at h; cases h
  | ok r1 =>
    rw [h1] at h
    rw [findKids, findKids] at h
    cases h2 : findKid false pa pk none (root ++ '/' :: k2) n2 with
    | error e => rw [h2] at h; cases h
    | ok r2 =>
      rw [h2] at h
      dsimp only at h
      rw [List.append_nil] at h
      exact ⟨r1, r2, rfl, rfl, (Except.ok.inj h).symm⟩

theorem filter_none {r : List Found} (h : ∀ x ∈ r, x.nx = false) : r.filter (·.nx) = [] := by
  rw [List.filter_eq_nil_iff]
  intro x hx
  rw [h x hx]; simp

/-- The signal in an entry is found. -/
theorem find_entry {o : WOpts} {pa : Attrs} {pk : Kids} {root : Text} {s : WSig} {name : Text} {n : Node} {r : List Found} (ht : getKw "target".toList pa = none) (e : Entry o s name n)
    (h : findKid false pa pk none root n = .ok r) : ∃ x, r.filter (·.nx) = [x] ∧ x.path = root ++ '/' :: name ∧ Stored s.data s.axes x.attrs x.kids := by
  obtain ⟨_, a, ga, gk, xk, kids, rfl, h1, h2, _, h3, h4, _, h5, h6⟩ := e
  rw [findKid] at h
  rw [show getlink none pa root = .ok none by unfold getlink; rw [ht]] at h
  dsimp only at h
  rw [if_neg (by simp)] at h
  cases hf : findKids false a kids root kids with
  | error e => rw [hf] at h; cases h
  | ok r0 =>
    rw [hf] at h
    dsimp only at h
    have e0 : foundGroup root a kids pa pk none = [] := by unfold foundGroup; rw [h1]; rfl
    rw [e0, List.nil_append] at h
    obtain rfl := Except.ok.inj h
    have key : ∀ {q : List Found}, findKid false a kids none (root ++ '/' :: name) (.grp ga gk) = .ok q →
        ∃ x, q.filter (·.nx) = [x] ∧ x.path = root ++ '/' :: name ∧ Stored s.data s.axes x.attrs x.kids := by
      intro q hq
      rw [findKid] at hq
      rw [show getlink none a (root ++ '/' :: name) = .ok none by unfold getlink; rw [h2]] at hq
      dsimp only at hq
      rw [if_neg (by simp)] at hq
      cases hk : findKids false ga gk (root ++ '/' :: name) gk with
      | error e => rw [hk] at hq; cases hq
      | ok q0 =>
        rw [hk] at hq
        dsimp only at hq
        obtain rfl := Except.ok.inj hq
        have e1 : foundGroup (root ++ '/' :: name) ga gk a kids none = [⟨true, root ++ '/' :: name, ga, gk, .num 0, a, kids, true⟩] := by
          unfold foundGroup
          rw [(isData_iff ga).2 (.inl h3.nx), h3.signal]; rfl
        rw [e1, List.filter_append, filter_none (findKids_dataless gk (ds_dataless h4) hk), List.append_nil]
        exact ⟨_, rfl, rfl, h3⟩
    rcases h6 with rfl | rfl
    · obtain ⟨r1, r2, q1, q2, rfl⟩ := find_pair hf
      obtain ⟨x, x1, x2⟩ := key q1
      refine ⟨x, ?_, x2⟩
      rw [List.filter_append, filter_none (findKid_dataless _ h5 q2), List.append_nil, x1]
    · obtain ⟨r1, r2, q1, q2, rfl⟩ := find_pair hf
      obtain ⟨x, x1, x2⟩ := key q2
      refine ⟨x, ?_, x2⟩
      rw [List.filter_append, filter_none (findKid_dataless _ h5 q1), List.nil_append, x1]

/-- The signals of all entries are found. -/
theorem find_entries {o : WOpts} {pa : Attrs} {pk : Kids} (ht : getKw "target".toList pa = none) : ∀ {ss : List (WSig × Text)} {l : Kids} {r : List Found},
    List.Forall₂ (fun s (e : Text × Node) => Entry o s.1 s.2 e.2 ∧ '/' ∉ e.1 ∧ '/' ∉ s.2) ss l → findKids false pa pk [] l = .ok r →
    List.Forall₂ (fun s x => (∃ k n, (k, n) ∈ l ∧ Entry o s.1 s.2 n ∧ '/' ∉ k ∧ x.path = pathText [k, s.2]) ∧ '/' ∉ s.2 ∧ Stored s.1.data s.1.axes x.attrs x.kids ∧ GoodAxes s.1.data.shape s.1.axes) ss (r.filter (·.nx))
  | [], _, r, .nil, h => by
    rw [findKids] at h
    obtain rfl := Except.ok.inj h
    exact .nil
  | s :: ss, (k, n) :: l, r, .cons he hl, h => by
    rw [findKids] at h
    cases h1 : findKid false pa pk none ([] ++ '/' :: k) n with
    | error e => rw [h1] at h; cases h
    | ok r1 =>
      rw [h1] at h
      cases h2 : findKids false pa pk [] l with
      | error e => rw [h2] at h; cases h
      | ok r2 =>
        rw [h2] at h
        obtain rfl := Except.ok.inj h
        obtain ⟨x, x1, x2, x3⟩ := find_entry ht he.1 h1
        rw [List.filter_append, x1]
        refine .cons ⟨⟨k, n, List.mem_cons_self, he.1, he.2.1, ?_⟩, he.2.2, x3, he.1.good⟩ ((find_entries ht hl h2).imp fun s x hx => ?_)
        rotate_left
        · obtain ⟨⟨k', n', e1, e2⟩, e3⟩ := hx
          exact ⟨⟨k', n', List.mem_cons_of_mem _ e1, e2⟩, e3⟩
        rw [x2]
        simp [pathText]

/-! ### The file -/

/-- At the end of what is there. -/
theorem put_last {k : Text} {n : Node} : ∀ {g : Kids}, (∀ e ∈ g, e.1 ≠ k ∧ before k e.1 = false) → put k n g = g ++ [(k, n)]
  | [], _ => rfl
  | (k', n') :: l, h => by
    obtain ⟨h1, h2⟩ := h _ List.mem_cons_self
    rw [put, if_neg h1, h2, put_last fun e he => h e (List.mem_cons_of_mem _ he)]
    rfl

theorem names_ascend : ∀ i < 9, ∀ j < i, entryName j ≠ entryName i ∧ before (entryName i) (entryName j) = false := by decide +kernel

theorem entry_slash (i : Nat) : '/' ∉ entryName i := by
  intro hm
  rcases List.mem_append.1 hm with hm | hm
  · revert hm; decide
  · exact digit_no_slash (repr_digits _) hm

theorem entries_ok {o : WOpts} : ∀ {l : List WSig} {names : List Text} {i : Nat} {g g' : Kids} {done : List (WSig × Text)}, i + l.length ≤ 9 → names.length = l.length →
    (∀ j s t, l[j]? = some s → names[j]? = some t → GoodSignal (i + j) s t) → (∀ e ∈ g, ∃ j < i, e.1 = entryName j) →
    List.Forall₂ (fun s (e : Text × Node) => Entry o s.1 s.2 e.2 ∧ '/' ∉ e.1 ∧ '/' ∉ s.2) done g → writeEntries o i l g = .ok g' →
    List.Forall₂ (fun s (e : Text × Node) => Entry o s.1 s.2 e.2 ∧ '/' ∉ e.1 ∧ '/' ∉ s.2) (done ++ l.zip names) g'
  | [], names, i, g, g', done, _, hl, _, _, hd, h => by
    rw [writeEntries] at h
    obtain rfl := Except.ok.inj h
    simpa using hd
  | s :: l, [], i, g, g', done, _, hl, _, _, hd, h => by cases hl
  | s :: l, t :: names, i, g, g', done, h9, hl, hg, hk, hd, h => by
    rw [writeEntries] at h
    rw [List.length_cons] at h9
    cases hw : writeEntry o i s with
    | error e => rw [hw] at h; cases h
    | ok n =>
      rw [hw] at h
      dsimp only at h
      rw [put_last fun e he => by
        obtain ⟨j, hj, e1⟩ := hk e he
        rw [e1]; exact names_ascend i (by omega) j hj] at h
      have gs := hg 0 s t rfl rfl
      rw [Nat.add_zero] at gs
      have := entries_ok (l := l) (names := names) (i := i + 1) (done := done ++ [(s, t)]) (by omega) (by simpa using hl)
        (fun j s t h1 h2 => by
          have := hg (j + 1) s t h1 h2
          rwa [show i + (j + 1) = i + 1 + j by omega] at this)
        (fun e he => by
          rcases List.mem_append.1 he with he | he
          · obtain ⟨j, hj, e1⟩ := hk e he
            exact ⟨j, by omega, e1⟩
          · exact ⟨i, by omega, by rw [List.mem_singleton.1 he]⟩)
        (List.rel_append hd (.cons ⟨entry_ok gs hw, entry_slash i, (name_of gs.name).2.1⟩ .nil)) h
      rw [List.append_assoc] at this
      exact this

/-- **C124 (partial).** Up to nine signals that are written come back in their order, each with its data, its axes and its title; units that are not given are empty.
Named axes have a positive scale, and scale one with one value; axes without name have no calibration; the signal axes are the last one or two, or those without name. -/
theorem C124_write_read_partial {order : List Found → List Found} {file : Text} {o : WOpts} {l : List WSig} {names : List Text} {f : Node} {sigs : List Sig} (h9 : l.length ≤ 9)
    (hn : names.length = l.length) (hg : ∀ (i : Nat) s t, l[i]? = some s → names[i]? = some t → GoodSignal i s t) (hw : fileWriter o l = .ok f)
    (hr : fileReader order file { nxdataOnly := true } f = .ok sigs) :
    List.Forall₂ (fun s (sig : Sig) => sig.data = s.1.data ∧ sig.axes = s.1.axes.mapIdx comesBack ∧ Title s.2 sig) (l.zip names) sigs := by
  unfold fileWriter at hw
  simp only [bind, Except.bind, pure, Except.pure] at hw
  cases he : writeEntries o 0 l [] with
  | error e => rw [he] at hw; cases hw
  | ok kids =>
    rw [he] at hw
    dsimp only at hw
    generalize hat : (if o.useDefault = true then setKw "default".toList (Leaf.str "entry1".toList)
      [("file_format".toList, Leaf.str "nexus".toList), ("file_writer".toList, Leaf.str "hyperspy_nexus_v3".toList)]
      else [("file_format".toList, Leaf.str "nexus".toList), ("file_writer".toList, Leaf.str "hyperspy_nexus_v3".toList)]) = a at hw
    have ht : getKw "target".toList a = none := by rw [← hat]; split <;> rfl
    obtain rfl := Except.ok.inj hw
    have hf := entries_ok (done := []) (by omega) hn (fun j s t h1 h2 => by rw [Nat.zero_add]; exact hg j s t h1 h2) (fun e he => absurd he List.not_mem_nil) .nil he
    rw [List.nil_append] at hf
    obtain ⟨dk, dp, mk, om, nx, hdf, s1, h1, h2, _, _, h5, hx, hs⟩ := reader_parts hr
    rcases hs with ⟨_, rfl⟩ | ⟨hs, _⟩
    · obtain rfl := (Except.ok.inj h1).symm
      obtain rfl := (Except.ok.inj h2).symm
      replace h5 : findData order (.grp a kids) none false none = .ok (nx, hdf) := h5
      unfold findData at h5
      simp only [bind, Except.bind, pure, Except.pure, rootOf] at h5
      cases hk : findKids false a kids [] kids with
      | error e => rw [hk] at h5; cases h5
      | ok r =>
        rw [hk] at h5
        dsimp only at h5
        simp only [Bool.false_eq_true, if_false, and_self, if_true] at h5
        obtain ⟨rfl, -⟩ := Prod.mk.inj (Except.ok.inj h5)
        have hfe := find_entries ht hf hk
        clear hf hk h5 hr hg hn h9 he
        generalize l.zip names = z at hfe ⊢
        generalize r.filter (·.nx) = xs at hfe hx
        induction hfe generalizing sigs with
        | nil => cases hx; exact .nil
        | @cons z0 x zs xs hz _ ih =>
          obtain ⟨s0, t0⟩ := z0
          cases hx with
          | @cons _ sg _ _ hx1 hx2 =>
            refine .cons ?_ (ih hx2)
            obtain ⟨⟨k, _, _, _, hk, hp⟩, hsl, st, hga⟩ := hz
            obtain ⟨t1, ⟨la, t2, t3⟩, _⟩ := nexus_signal hx1
            rw [stored_signal hga st] at t2
            obtain ⟨e1, e2⟩ := Prod.mk.inj (Except.ok.inj t2)
            refine ⟨e1.symm, by rw [t3, ← e2], ?_⟩
            have : titleOf x.path = t0 := by
              rw [hp]
              refine title_path (fun y hy => ?_) rfl
              rcases List.mem_cons.1 hy with rfl | hy
              · exact hk
              · rw [List.mem_singleton.1 hy]; exact hsl
            rw [← this]
            exact t1
    · cases hs

end Verif.Props.Nexus
