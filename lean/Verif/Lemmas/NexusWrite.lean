import Verif.Props.NexusAxes
/-! Lemmas on NeXus files: signals that are written. -/
namespace Verif.Props.Nexus
open Verif Verif.Nexus

theorem getKw_put (k j : Text) (n : Node) : ∀ g : Kids, getKw j (put k n g) = if j = k then some n else getKw j g
  | [] => by
    by_cases h : j = k
    · simp [put, getKw, h]
    · simp [put, getKw, h, Ne.symm h]
  | (k', n') :: l => by
    have ih := getKw_put k j n l
    unfold put
    by_cases h1 : k' = k
    · subst h1
      rw [if_pos rfl]
      by_cases h : j = k'
      · simp [getKw, h]
      · simp [getKw, h, Ne.symm h]
    · rw [if_neg h1]
      split
      · by_cases h : j = k
        · simp [getKw, h]
        · simp [getKw, h, Ne.symm h]
      · rw [getKw, ih, getKw]
        by_cases h : j = k
        · subst h; rw [if_pos rfl, if_neg h1, if_pos rfl]
        · rw [if_neg h, if_neg h]

/-- The attribute of an axis and other attributes. -/
theorem indices_ne {k : Text} {s : String} (h : (s.toList.drop (s.toList.length - 8)) ≠ "_indices".toList) : s.toList ≠ k ++ "_indices".toList := by
  intro e
  apply h
  rw [e, List.length_append]
  have : ("_indices".toList).length = 8 := rfl
  rw [this, Nat.add_sub_cancel, List.drop_left]

/-- The attribute with the units. -/
def unitsAttr : Option Text → Attrs
  | none => []
  | some u => [("units".toList, .str u)]

/-- What is written for one axis. -/
def Written (a : Attrs) (kids : Kids) (i : Nat) (w : WAxis) : Prop :=
  ∀ k, w.name = some k → getKw (k ++ "_indices".toList) a = some (.num i) ∧
    ∃ l, axisValues w.kind = .ok l ∧ getKw k kids = some (.ds (unitsAttr w.units) (.nums [l.length] l))

theorem findIdx_axis {done rest : List WAxis} {w : WAxis} {k : Text} (hw : w.name = some k) (hd : k ∉ done.filterMap (·.name)) :
    (done ++ w :: rest).findIdx (· = w) = done.length := by
  rw [List.findIdx_append]
  have : done.findIdx (· = w) = done.length := by
    rw [List.findIdx_eq_length]
    intro x hx
    refine decide_eq_false ?_
    rintro rfl
    exact hd (List.mem_filterMap.2 ⟨x, hx, hw⟩)
  rw [this, if_neg (Nat.lt_irrefl _), List.findIdx_cons]
  simp

theorem loop_written : ∀ (rest done : List WAxis) (a : Attrs) (kids : Kids) (s' : Attrs × Kids × List Text),
    ((done ++ rest).filterMap (·.name)).Nodup → (∀ w ∈ rest, ∀ k, w.name = some k → getKw k kids = none) → (∀ (i : Nat) w, done[i]? = some w → Written a kids i w) →
    writeAxesLoop (done ++ rest) rest (a, kids, done.map (fun w => w.name.getD ['.']) ++ List.replicate rest.length ['.']) = .ok s' →
    (∀ (i : Nat) w, (done ++ rest)[i]? = some w → Written s'.1 s'.2.1 i w) ∧ s'.2.2 = (done ++ rest).map (fun w => w.name.getD ['.']) ∧
    (∀ k, (∀ j, k ≠ j ++ "_indices".toList) → getKw k s'.1 = getKw k a) ∧ (∀ k, some k ∉ rest.map (·.name) → getKw k s'.2.1 = getKw k kids)
  | [], done, a, kids, s', _, _, hw, h => by
    rw [writeAxesLoop] at h
    obtain rfl := Except.ok.inj h
    refine ⟨by simpa using hw, by simp, fun _ _ => rfl, fun _ _ => rfl⟩
  | w :: rest, done, a, kids, s', hn, hk, hw, h => by
    rw [writeAxesLoop] at h
    have e0 : done ++ w :: rest = (done ++ [w]) ++ rest := by simp
    cases hname : w.name with
    | none =>
      rw [hname] at h
      dsimp only at h
      have e1 : done.map (fun w => w.name.getD ['.']) ++ List.replicate (w :: rest).length ['.'] =
          (done ++ [w]).map (fun w => w.name.getD ['.']) ++ List.replicate rest.length ['.'] := by
        rw [List.map_append, List.append_assoc, List.map_singleton, hname, List.length_cons, List.replicate_succ]; rfl
      rw [e1, e0] at h
      rw [e0] at hn
      obtain ⟨r1, r2, r3, r4⟩ := loop_written rest (done ++ [w]) a kids s' hn (fun w hw => hk w (List.mem_cons_of_mem _ hw)) (by
        intro i w' hi
        rw [List.getElem?_append] at hi
        split at hi
        · exact hw i w' hi
        · have : w' = w := by
            have := List.mem_of_getElem? hi
            exact List.mem_singleton.1 this
          subst this
          intro k hk'
          rw [hname] at hk'; cases hk') h
      rw [e0]
      refine ⟨r1, r2, r3, fun k hk' => r4 k fun hm => hk' (List.mem_cons_of_mem _ hm)⟩
    | some k =>
      rw [hname] at h
      dsimp only at h
      unfold writeAxis at h
      have hkd : k ∉ done.filterMap (·.name) := by
        rw [List.filterMap_append, List.filterMap_cons, hname] at hn
        have := (List.nodup_append.1 hn).2.2
        intro hm
        exact this k hm k List.mem_cons_self rfl
      simp only [findIdx_axis hname hkd, bind, Except.bind, pure, Except.pure] at h
      cases hv : axisValues w.kind with
      | error e => rw [hv] at h; cases h
      | ok l =>
        rw [hv] at h
        dsimp only at h
        have hreq : requireDs k l kids = .ok ([], .nums [l.length] l) := by
          unfold requireDs
          rw [hk w List.mem_cons_self k hname]
        rw [hreq] at h
        dsimp only at h
        rw [if_pos (by simp)] at h
        dsimp only at h
        have e1 : (done.map (fun w => w.name.getD ['.']) ++ List.replicate (w :: rest).length ['.']).set done.length k =
            (done ++ [w]).map (fun w => w.name.getD ['.']) ++ List.replicate rest.length ['.'] := by
          rw [List.map_append, List.append_assoc, List.map_singleton, hname, List.length_cons, List.replicate_succ]
          rw [List.set_append_right (h := by simp)]
          simp
        rw [e1, e0] at h
        rw [e0] at hn
        have hrest : k ∉ rest.filterMap (·.name) := by
          rw [List.filterMap_append, List.filterMap_append] at hn
          have := (List.nodup_append.1 hn).2.2
          intro hm
          refine this k (List.mem_append_right _ ?_) k hm rfl
          rw [List.filterMap_cons, hname]; exact List.mem_cons_self
        obtain ⟨r1, r2, r3, r4⟩ := loop_written rest (done ++ [w]) _ _ s' hn (by
          intro w' hw' k' hk'
          rw [getKw_put, if_neg]
          · exact hk w' (List.mem_cons_of_mem _ hw') k' hk'
          · rintro rfl
            exact hrest (List.mem_filterMap.2 ⟨w', hw', hk'⟩)) (by
          intro i w' hi
          rw [List.getElem?_append] at hi
          split at hi
          · rename_i hlt
            intro k' hk'
            have hne : k' ≠ k := by
              rintro rfl
              exact hkd (List.mem_filterMap.2 ⟨w', List.mem_of_getElem? hi, hk'⟩)
            obtain ⟨q1, l', q2, q3⟩ := hw i w' hi k' hk'
            refine ⟨?_, l', q2, ?_⟩
            · rw [getKw_setKw, if_neg (fun e => hne (List.append_cancel_right e)), q1]
            · rw [getKw_put, if_neg hne, q3]
          · rename_i hge
            have hi0 : i = done.length := by
              have := (List.getElem?_eq_some_iff.1 hi).1
              simp at this hge
              omega
            have : w' = w := List.mem_singleton.1 (List.mem_of_getElem? hi)
            subst this
            intro k' hk'
            rw [hname] at hk'
            obtain rfl := Option.some.inj hk'
            refine ⟨?_, l, hv, ?_⟩
            · rw [getKw_setKw, if_pos rfl, hi0]
            · rw [getKw_put, if_pos rfl]
              cases w'.units <;> rfl) h
        rw [e0]
        refine ⟨r1, r2, fun k' hk' => ?_, fun k' hk' => ?_⟩
        · rw [r3 k' hk', getKw_setKw, if_neg (hk' k)]
        · rw [r4 k' (fun hm => hk' (List.mem_cons_of_mem _ hm)), getKw_put, if_neg]
          rintro rfl
          exact hk' (by rw [List.map_cons, hname]; exact List.mem_cons_self)

/-- A signal that is written. -/
structure Stored (data : Leaf) (axes : List WAxis) (a : Attrs) (kids : Kids) : Prop where
  nx : getKw "NX_class".toList a = some (.bytes "NXdata".toList)
  target : getKw "target".toList a = none
  signal : getKw "signal".toList a = some (.bytes "data".toList)
  interpretation : getKw "interpretation".toList a = (recordBy axes).map .bytes
  names : ∃ sh, getKw "axes".toList a = some (.texts sh (axes.map fun w => w.name.getD ['.']))
  data : getKw "data".toList kids = some (.ds [] data)
  written : ∀ (i : Nat) w, axes[i]? = some w → Written a kids i w

theorem ends {s : String} (h : (s.toList.drop (s.toList.length - 8)) ≠ "_indices".toList) : ∀ j, s.toList ≠ j ++ "_indices".toList := fun _ => indices_ne h

theorem signal_stored {data : Leaf} {axes : List WAxis} {a : Attrs} {kids : Kids} (hl : axes.length = data.shape.length) (hn : (axes.filterMap (·.name)).Nodup)
    (hd : ∀ w ∈ axes, w.name ≠ some "data".toList) (h : writeSignal data axes [] [] = .ok (a, kids)) : Stored data axes a kids := by
  unfold writeSignal at h
  simp only [bind, Except.bind, pure, Except.pure] at h
  generalize ha : signalAttrs axes [] = a0 at h
  have h1 : getKw "NX_class".toList a0 = some (.bytes "NXdata".toList) := by
    rw [← ha]; unfold signalAttrs; cases recordBy axes <;> rfl
  have h2 : getKw "signal".toList a0 = some (.bytes "data".toList) := by
    rw [← ha]; unfold signalAttrs; cases recordBy axes <;> rfl
  have h3 : getKw "interpretation".toList a0 = (recordBy axes).map .bytes := by
    rw [← ha]; unfold signalAttrs; cases recordBy axes <;> rfl
  have h4 : getKw "target".toList a0 = none := by
    rw [← ha]; unfold signalAttrs; cases recordBy axes <;> rfl
  cases hw : writeAxesLoop axes axes (a0, put "data".toList (Node.ds [] data) [], List.replicate data.shape.length ['.']) with
  | error e => rw [hw] at h; cases h
  | ok s =>
    rw [hw] at h
    obtain ⟨a1, k1, names⟩ := s
    dsimp only at h
    have := loop_written axes [] a0 (put "data".toList (Node.ds [] data) []) (a1, k1, names) (by simpa using hn) (by
      intro w hw k hk
      rw [getKw_put, if_neg]
      · rfl
      · rintro rfl; exact hd w hw hk) (by simp) (by rw [List.nil_append, List.map_nil, List.nil_append, hl]; exact hw)
    obtain ⟨r1, r2, r3, r4⟩ := this
    rw [List.nil_append] at r1 r2
    dsimp only at r2
    have hnl : ∀ v, namesLeaf names = .ok v → v = .texts [names.length] names := by
      intro v hv
      unfold namesLeaf at hv
      split at hv
      · exact (Except.ok.inj hv).symm
      · cases hv
    split at h
    · cases h
    · rename_i v0 hv0
      obtain rfl := hnl _ hv0
      obtain ⟨rfl, rfl⟩ := Prod.mk.inj (Except.ok.inj h)
      refine ⟨?_, ?_, ?_, ?_, ⟨[names.length], ?_⟩, ?_, ?_⟩
      · rw [getKw_setKw, if_neg (by decide), r3 _ (ends (by decide)), h1]
      · rw [getKw_setKw, if_neg (by decide), r3 _ (ends (by decide)), h4]
      · rw [getKw_setKw, if_neg (by decide), r3 _ (ends (by decide)), h2]
      · rw [getKw_setKw, if_neg (by decide), r3 _ (ends (by decide)), h3]
      · rw [getKw_setKw, if_pos rfl, r2]
      · rw [r4 _ (by
          intro hm
          obtain ⟨w, hw, e⟩ := List.mem_map.1 hm
          exact hd w hw e), getKw_put, if_pos rfl]
      · intro i w hi k hk
        obtain ⟨q1, q2⟩ := r1 i w hi k hk
        refine ⟨?_, q2⟩
        rw [getKw_setKw, if_neg (Ne.symm (ends (by decide) k)), q1]

/-! ### Reading it -/

/-- The axes as they are listed, before the interpretation. -/
def listed (i : Nat) (w : WAxis) : Ax := { comesBack i w with navigate := w.name.isSome }

theorem rows_stored {shape : List Nat} {a : Attrs} {kids : Kids} : ∀ (rest : List WAxis) (i : Nat),
    (∀ (j : Nat) w, rest[j]? = some w → Written a kids (i + j) w ∧ ∃ n, shape[i + j]? = some n ∧ GoodAxis n w) →
    Rows shape a kids i (rest.map fun w => w.name.getD ['.']) (List.range' i rest.length) (rest.mapIdx fun j w => listed (i + j) w)
  | [], i, _ => .nil i
  | w :: rest, i, h => by
    have ih := rows_stored rest (i + 1) fun j w hj => by
      have := h (j + 1) w hj
      rwa [show i + (j + 1) = i + 1 + j by omega] at this
    have e : (w :: rest).mapIdx (fun j w => listed (i + j) w) = listed i w :: rest.mapIdx (fun j w => listed (i + 1 + j) w) := by
      rw [List.mapIdx_cons]
      congr 1
      congr 1
      funext j w
      rw [show i + (j + 1) = i + 1 + j by omega]
    rw [e, List.map_cons, List.length_cons, List.range'_succ]
    obtain ⟨hw, n, hn, g⟩ := h 0 w rfl
    rw [Nat.add_zero] at hw hn
    cases g with
    | @named k u nav s o hk hs hc hc2 =>
      obtain ⟨q1, l, q2, q3⟩ := hw k rfl
      have hl : evenly o s n = l := Except.ok.inj q2
      have hlen : l.length = n := by rw [← hl]; unfold evenly; simp
      rw [hlen, ← hl] at q3
      have hu : Units (unitsAttr u) (.str (u.getD [])) := by
        cases u with
        | none => exact .inl ⟨rfl, rfl⟩
        | some u => exact .inr (.inl ⟨u, rfl, rfl⟩)
      rcases hc2 with ⟨h2, hs'⟩ | ⟨rfl, rfl⟩
      · exact .named hk.1 hn (.inr (.inl q1)) q3 (.same _) hu h2 hs' ih
      · have e1 : evenly o 1 1 = [o] := by rw [evenly_succ]; rfl
        rw [e1] at q3
        exact .single hk.1 hn (.inr (.inl q1)) q3 (.same _) hu ih
    | @unnamed u nav hu =>
      have : listed i ⟨none, u, nav, .uniform 1 0 n⟩ = ⟨n, i, none, 1, 0, some (.str []), false⟩ := by
        show Ax.mk n i none 1 0 (some (.str (u.getD []))) false = _
        rw [hu]
      rw [this]
      exact .dot hn ih

theorem count_last {l : List WAxis} {k : Nat} (hk : k ≤ l.length) (h : ∀ (i : Nat) w, l[i]? = some w → w.navigate = decide (i + k < l.length)) :
    (l.filter fun w => !w.navigate).length = k := by
  induction l generalizing k with
  | nil => exact (Nat.le_zero.1 hk).symm
  | cons w l ih =>
    have h0 := h 0 w rfl
    by_cases e : k ≤ l.length
    · rw [List.filter_cons_of_neg (by rw [h0, decide_eq_true (by simp; omega)]; simp)]
      refine ih e fun i w' hi => ?_
      rw [h (i + 1) w' hi, List.length_cons]
      congr 1
      exact propext ⟨by omega, by omega⟩
    · have ek : k = l.length + 1 := by rw [List.length_cons] at hk; omega
      subst ek
      rw [List.filter_eq_self.2]
      · rfl
      · intro w' hw'
        obtain ⟨i, hi⟩ := List.mem_iff_getElem?.1 hw'
        rw [h i w' hi, decide_eq_false (by simp)]; rfl

theorem marked_stored {a : Attrs} {axes : List WAxis} (ho : GoodOrder axes) (hi : getKw "interpretation".toList a = (recordBy axes).map .bytes) :
    Marked a (axes.mapIdx fun j w => listed j w) (axes.mapIdx fun j w => comesBack j w) := by
  have key : ∀ k, (∀ (i : Nat) w, axes[i]? = some w → w.navigate = decide (i + k < axes.length)) →
      lastAxes k (axes.mapIdx fun j w => listed j w) = axes.mapIdx fun j w => comesBack j w := by
    intro k h
    unfold lastAxes
    apply List.ext_getElem?
    intro i
    rw [List.getElem?_mapIdx, List.getElem?_mapIdx, List.getElem?_mapIdx, List.length_mapIdx]
    cases hx : axes[i]? with
    | none => rfl
    | some w =>
      simp only [Option.map_some]
      congr 1
      rw [← h i w hx]
      unfold listed comesBack
      cases w.kind <;> rfl
  rcases ho with ⟨k, hk, hl, h⟩ | ⟨h, h1, h2⟩
  · have hc := count_last hl h
    rw [← key k h]
    rcases hk with rfl | rfl
    · refine .spectrum (.inr ?_) (by simpa using hl)
      rw [hi]; unfold recordBy; rw [hc]; rfl
    · refine .image (.inr ?_) (by simpa using hl)
      rw [hi]; unfold recordBy; rw [hc]; rfl
  · have e : (axes.mapIdx fun j w => listed j w) = axes.mapIdx fun j w => comesBack j w := by
      apply List.ext_getElem?
      intro i
      rw [List.getElem?_mapIdx, List.getElem?_mapIdx]
      cases hx : axes[i]? with
      | none => rfl
      | some w =>
        simp only [Option.map_some]
        congr 1
        unfold listed
        rw [← h w (List.mem_of_getElem? hx)]
        unfold comesBack
        cases w.kind <;> rfl
    rw [e]
    refine .asis ?_
    rw [hi]
    unfold recordBy
    split
    · rename_i h'; exact absurd h' h1
    · rename_i h'; exact absurd h' h2
    · rfl

/-- What is read of a signal that was written. -/
theorem stored_signal {data : Leaf} {axes : List WAxis} {x : Found} (g : GoodAxes data.shape axes) (s : Stored data axes x.attrs x.kids) :
    nexusSignal x = .ok (data, axes.mapIdx fun j w => comesBack j w) := by
  obtain ⟨sh, hn⟩ := s.names
  have hg : ∀ (i : Nat) w, axes[i]? = some w → ∃ n, data.shape[i]? = some n ∧ GoodAxis n w := by
    intro i w hi
    have hlt := (List.getElem?_eq_some_iff.1 hi).1
    rw [g.length] at hlt
    exact ⟨_, List.getElem?_eq_getElem hlt, g.axes i w _ hi (List.getElem?_eq_getElem hlt)⟩
  have hr := rows_stored (shape := data.shape) (a := x.attrs) (kids := x.kids) axes 0 fun j w hj => by
    rw [Nat.zero_add]; exact ⟨s.written j w hj, hg j w hj⟩
  simp only [Nat.zero_add] at hr
  have hnames : Names x.attrs (axes.map fun w => w.name.getD ['.']) := by
    refine .inr ⟨sh, hn, fun k hk => ?_⟩
    obtain ⟨w, hw, rfl⟩ := List.mem_map.1 hk
    obtain ⟨i, hi⟩ := List.mem_iff_getElem?.1 hw
    obtain ⟨n, _, g⟩ := hg i w hi
    cases g with
    | named hk hs hc _ => exact hc
    | unnamed _ =>
      have : '\x00' ∉ ['.'] ∧ ∀ c, ['.'].getLast? = some c → isSpace c = false := ⟨by decide, by decide⟩
      exact this
  refine signal_axes (.text (.inl s.signal) (by decide) s.data (.same _)) (nav_list hnames (by rw [List.length_map, g.length]) hr (.inl ?_)) ?_
  · rw [List.range_eq_range', List.length_map]
  · have hne : (axes.mapIdx fun j w => listed j w).isEmpty = false := by
      have := g.nonempty
      cases axes with
      | nil => exact absurd rfl this
      | cons => rw [List.mapIdx_cons]; rfl
    rw [hne]
    exact marked_of (marked_stored g.order s.interpretation)

end Verif.Props.Nexus
