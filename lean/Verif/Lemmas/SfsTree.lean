import Verif.Lemmas.Sfs
namespace Verif.Sfs

abbrev Table := List (Bool × Text × Option Nat)

/-! ### Paths -/

section Paths
variable {es : Table}

theorem PathOf.ne_nil {i : Nat} {ns : List Text} (h : PathOf es i ns) : ns ≠ [] := by
  cases h <;> simp

theorem PathOf.last {i : Nat} {ns : List Text} (h : PathOf es i ns) :
    ∃ d name p, es[i]? = some (d, name, p) ∧ ns = ns.dropLast ++ [name] := by
  cases h with
  | top _ d name h => exact ⟨d, name, none, h, rfl⟩
  | sub _ p d name ns h _ => exact ⟨d, name, some p, h, by rw [List.dropLast_concat]⟩

theorem PathOf.unique {i : Nat} {ns : List Text} (h : PathOf es i ns) :
    ∀ {ns' : List Text}, PathOf es i ns' → ns = ns' := by
  induction h with
  | top i d name h =>
    intro ns' h'
    cases h' with
    | top _ d' name' h'' => rw [h] at h''; cases h''; rfl
    | sub _ p d' name' ns h'' _ => rw [h] at h''; cases h''
  | sub i p d name ns h _ ih =>
    intro ns' h'
    cases h' with
    | top _ d' name' h'' => rw [h] at h''; cases h''
    | sub _ p' d' name' ns'' h'' hp => rw [h] at h''; cases h''; rw [ih hp]

theorem PathOf.inj (fs : FileSystem es) {i : Nat} {ns : List Text} (h : PathOf es i ns) :
    ∀ {j : Nat}, PathOf es j ns → i = j := by
  induction h with
  | top i d name h =>
    intro j h'
    generalize hns : [name] = ns at h'
    cases h' with
    | top _ d' name' h'' => cases hns; exact fs.names i j d d' name none h h''
    | sub _ p d' name' ns'' h'' hp =>
      have : ns'' = [] := by
        have := congrArg List.length hns
        rw [List.length_append, List.length_singleton, List.length_singleton] at this
        exact List.length_eq_zero_iff.1 (by omega)
      exact absurd this hp.ne_nil
  | sub i p d name ns h hp ih =>
    intro j h'
    generalize hns : ns ++ [name] = ms at h'
    cases h' with
    | top _ d' name' h'' =>
      have : ns = [] := by
        have := congrArg List.length hns
        rw [List.length_append, List.length_singleton, List.length_singleton] at this
        exact List.length_eq_zero_iff.1 (by omega)
      exact absurd this hp.ne_nil
    | sub _ p' d' name' ns'' h'' hp' =>
      obtain ⟨rfl, h2⟩ := List.append_inj' hns rfl
      cases h2
      obtain rfl := ih hp'
      exact fs.names i j d d' name (some p) h h''

theorem above_of_prefix (fs : FileSystem es) {k : Nat} {ns : List Text} (hk : PathOf es k ns) {i : Nat}
    {ms : List Text} (h : PathOf es i ms) : ns <+: ms → ns ≠ ms → Above es k i := by
  induction h with
  | top i d name h =>
    intro hp hne
    have := hk.ne_nil
    rcases List.prefix_cons_iff.1 hp with rfl | ⟨t, rfl, ht⟩
    · exact absurd rfl this
    · rw [List.prefix_nil] at ht
      exact absurd (by rw [ht]) hne
  | sub i p d name ms h hms ih =>
    intro hp hne
    rcases List.prefix_concat_iff.1 hp with e | hp'
    · exact absurd e hne
    · by_cases e : ns = ms
      · subst e
        rw [PathOf.inj fs hk hms]
        exact .parent i p d name h
      · exact .up i p k d name h (ih hp' e)

theorem prefix_of_above {a i : Nat} (h : Above es a i) : ∀ {ns ms : List Text}, PathOf es a ns →
    PathOf es i ms → ns <+: ms ∧ ns.length < ms.length := by
  induction h with
  | parent i p d name h =>
    intro ns ms ha hi
    cases hi with
    | top _ d' name' h' => rw [h] at h'; cases h'
    | sub _ p' d' name' ms' h' hp =>
      rw [h] at h'; cases h'
      rw [PathOf.unique ha hp]
      exact ⟨List.prefix_append .., by simp⟩
  | up i p a d name h _ ih =>
    intro ns ms ha hi
    cases hi with
    | top _ d' name' h' => rw [h] at h'; cases h'
    | sub _ p' d' name' ms' h' hp =>
      rw [h] at h'; cases h'
      obtain ⟨h1, h2⟩ := ih ha hp
      exact ⟨h1.trans (List.prefix_append ..), by rw [List.length_append]; omega⟩

theorem above_dir (fs : FileSystem es) {a i : Nat} (h : Above es a i) :
    ∃ name q, es[a]? = some (true, name, q) := by
  induction h with
  | parent i p d name h => exact fs.dirs i p d name h
  | up i p a d name _ _ ih => exact ih

theorem above_lt (fs : FileSystem es) {a i : Nat} (h : Above es a i) : a < es.length := by
  obtain ⟨name, q, h⟩ := above_dir fs h
  exact (List.getElem?_eq_some_iff.1 h).1

/-! ### The loop that completes the paths -/

/-- The indices on the way up. -/
inductive Chain (es : Table) : Nat → List Int → Prop
  | top (i : Nat) (d : Bool) (name : Text) : es[i]? = some (d, name, none) → Chain es i [-1]
  | sub (i p : Nat) (d : Bool) (name : Text) (l : List Int) : es[i]? = some (d, name, some p) →
      Chain es p l → Chain es i ((p : Int) :: l)

theorem Chain.unique {i : Nat} {l : List Int} (h : Chain es i l) : ∀ {l' : List Int}, Chain es i l' → l = l' := by
  induction h with
  | top i d name h =>
    intro l' h'
    cases h' with
    | top _ d' name' h'' => rfl
    | sub _ p d' name' ns h'' _ => rw [h] at h''; cases h''
  | sub i p d name ns h _ ih =>
    intro l' h'
    cases h' with
    | top _ d' name' h'' => rw [h] at h''; cases h''
    | sub _ p' d' name' ns'' h'' hp => rw [h] at h''; cases h''; rw [ih hp]

theorem Chain.split {i : Nat} {l : List Int} (h : Chain es i l) : ∀ {p : List Int} {x : Int}, p <+: l →
    p.getLast? = some x → (x = -1 ∧ p = l) ∨ ∃ (q : Nat) (l' : List Int), x = q ∧ Chain es q l' ∧ l = p ++ l' := by
  induction h with
  | top i d name h =>
    intro p x hp hx
    rcases List.prefix_cons_iff.1 hp with rfl | ⟨t, rfl, ht⟩
    · cases hx
    · rw [List.prefix_nil] at ht
      subst ht
      cases hx
      exact .inl ⟨rfl, rfl⟩
  | sub i q d name l h hl ih =>
    intro p x hp hx
    rcases List.prefix_cons_iff.1 hp with rfl | ⟨t, rfl, ht⟩
    · cases hx
    · cases t with
      | nil => cases hx; exact .inr ⟨q, l, rfl, hl, rfl⟩
      | cons b t =>
        rw [List.getLast?_cons_cons] at hx
        rcases ih ht hx with ⟨h1, h2⟩ | ⟨q', l', h1, h2, h3⟩
        · exact .inl ⟨h1, by rw [h2]⟩
        · exact .inr ⟨q', l', h1, h2, by rw [h3]; rfl⟩

theorem Chain.last {i : Nat} {l : List Int} (h : Chain es i l) : l.getLast? = some (-1) := by
  induction h with
  | top => rfl
  | sub i p d name l _ hl ih =>
    rw [List.getLast?_cons, ih]
    rfl

theorem Chain.lt {i : Nat} {l : List Int} (h : Chain es i l) : i < es.length := by
  cases h with
  | top _ d name h => exact (List.getElem?_eq_some_iff.1 h).1
  | sub _ p d name l h _ => exact (List.getElem?_eq_some_iff.1 h).1

/-- Every path is a part of the way up. -/
def Inv (es : Table) (ps : List (List Int)) : Prop :=
  ps.length = es.length ∧ ∀ i p, ps[i]? = some p → p ≠ [] ∧ ∃ l, Chain es i l ∧ p <+: l

theorem pathPass_ok : ∀ (k f : Nat) (ps : List (List Int)), Inv es ps →
    ∃ ps', pathPass k f ps = .ok ps' ∧ Inv es ps' ∧ ∀ i p, ps[i]? = some p → ∃ p', ps'[i]? = some p' ∧
      p.length ≤ p'.length ∧ (f ≤ i → i < f + k → p'.getLast? = some (-1) ∨ p.length < p'.length)
  | 0, f, ps, h => ⟨ps, rfl, h, fun i p hp => ⟨p, hp, Nat.le_refl _, by omega⟩⟩
  | k + 1, f, ps, h => by
    rw [pathPass]
    cases hf : ps[f]? with
    | none =>
      refine ⟨ps, rfl, h, fun i p hp => ⟨p, hp, Nat.le_refl _, ?_⟩⟩
      intro h1 _
      have := (List.getElem?_eq_some_iff.1 hp).1
      have := List.getElem?_eq_none_iff.1 hf
      omega
    | some p =>
      dsimp only
      obtain ⟨hne, l, hl, hpre⟩ := h.2 f p hf
      cases hx : p.getLast? with
      | none => exact absurd (List.getLast?_eq_none_iff.1 hx) hne
      | some x =>
        dsimp only
        by_cases h1 : x = -1
        · rw [if_pos h1]
          obtain ⟨ps', e1, e2, e3⟩ := pathPass_ok k (f + 1) ps h
          refine ⟨ps', e1, e2, ?_⟩
          intro i q hq
          obtain ⟨q', a1, a2, a3⟩ := e3 i q hq
          refine ⟨q', a1, a2, ?_⟩
          intro b1 b2
          by_cases hi : i = f
          · subst hi
            rw [hf] at hq
            cases hq
            by_cases hlen : p.length < q'.length
            · exact .inr hlen
            · left
              obtain ⟨-, l', hl', hpre'⟩ := e2.2 i q' a1
              have hpl : p = l := by
                rcases hl.split hpre hx with ⟨-, e⟩ | ⟨q0, _, e, -⟩
                · exact e
                · exfalso
                  omega
              have : q' = l' := by
                apply hpre'.eq_of_length_le
                rw [← hl.unique hl', ← hpl]
                omega
              rw [this]
              exact hl'.last
          · exact a3 (by omega) (by omega)
        · rw [if_neg h1]
          rcases hl.split hpre hx with ⟨e, -⟩ | ⟨q, l', e, hq, hll⟩
          · exact absurd e h1
          · have hqlt : q < ps.length := by rw [h.1]; exact hq.lt
            have hget : pyGet ps x = .ok ps[q] := by
              rw [e]
              exact pyGet_nat (List.getElem?_eq_getElem hqlt)
            rw [hget]
            dsimp only
            obtain ⟨hqne, l2, hl2, hpre2⟩ := h.2 q ps[q] (List.getElem?_eq_getElem hqlt)
            have hfl : f < ps.length := (List.getElem?_eq_some_iff.1 hf).1
            have hinv : Inv es (ps.set f (p ++ ps[q])) := by
              refine ⟨by rw [List.length_set]; exact h.1, ?_⟩
              intro i r hr
              rw [List.getElem?_set] at hr
              by_cases hi : f = i
              · rw [if_pos hi] at hr
                subst hi
                rw [if_pos hfl] at hr
                cases hr
                refine ⟨by simp [hne], l, hl, ?_⟩
                rw [hll, hq.unique hl2]
                exact (List.prefix_append_right_inj p).2 hpre2
              · rw [if_neg hi] at hr
                exact h.2 i r hr
            obtain ⟨ps', e1, e2, e3⟩ := pathPass_ok k (f + 1) _ hinv
            refine ⟨ps', e1, e2, ?_⟩
            intro i r hr
            by_cases hi : i = f
            · subst hi
              rw [hf] at hr
              cases hr
              have hset : (ps.set i (p ++ ps[q]))[i]? = some (p ++ ps[q]) := by
                rw [List.getElem?_set, if_pos rfl, if_pos hfl]
              obtain ⟨q', a1, a2, -⟩ := e3 i _ hset
              have hpos := List.length_pos_iff.2 hqne
              rw [List.length_append] at a2
              exact ⟨q', a1, by omega, fun _ _ => .inr (by omega)⟩
            · have hset : (ps.set f (p ++ ps[q]))[i]? = some r := by
                rw [List.getElem?_set, if_neg (Ne.symm hi)]
                exact hr
              obtain ⟨q', a1, a2, a3⟩ := e3 i _ hset
              exact ⟨q', a1, a2, fun b1 b2 => a3 (by omega) (by omega)⟩

theorem paths_ok (M : Nat) (hM : ∀ i l, Chain es i l → l.length ≤ M) : ∀ (fuel : Nat) (ps : List (List Int)),
    Inv es ps → (∀ (i : Nat) (p : List Int), ps[i]? = some p → p.getLast? = some (-1) ∨ M ≤ p.length + fuel) →
    ∃ ps', paths fuel ps = some (.ok ps') ∧ ps'.length = es.length ∧
      ∀ i p, ps'[i]? = some p → Chain es i p
  | fuel, ps, h, hp => by
    have done : ∀ {ps : List (List Int)}, Inv es ps → ps.all (fun p => decide (p.getLast? = some (-1))) = true →
        ps.length = es.length ∧ ∀ i p, ps[i]? = some p → Chain es i p := by
      intro ps h ha
      refine ⟨h.1, ?_⟩
      intro i p hi
      obtain ⟨hne, l, hl, hpre⟩ := h.2 i p hi
      have hlast := of_decide_eq_true (List.all_eq_true.1 ha p (List.mem_of_getElem? hi))
      rcases hl.split hpre hlast with ⟨-, e⟩ | ⟨q, _, e, -⟩
      · rw [e]; exact hl
      · exfalso; omega
    cases fuel with
    | zero =>
      have ha : ps.all (fun p => decide (p.getLast? = some (-1))) = true := by
        rw [List.all_eq_true]
        intro p hm
        obtain ⟨i, hi⟩ := List.getElem?_of_mem hm
        apply decide_eq_true
        rcases hp i p hi with h1 | h1
        · exact h1
        · obtain ⟨-, l, hl, hpre⟩ := h.2 i p hi
          have := hM i l hl
          rw [hpre.eq_of_length_le (by omega)]
          exact hl.last
      rw [paths, if_pos ha]
      exact ⟨ps, rfl, done h ha⟩
    | succ n =>
      rw [paths]
      by_cases ha : ps.all (fun p => decide (p.getLast? = some (-1))) = true
      · rw [if_pos ha]
        exact ⟨ps, rfl, done h ha⟩
      · rw [if_neg ha]
        obtain ⟨ps', e1, e2, e3⟩ := pathPass_ok ps.length 0 ps h
        rw [e1]
        dsimp only
        refine paths_ok M hM n ps' e2 ?_
        intro i p' hp'
        have hi : i < ps.length := by
          rw [h.1, ← e2.1]; exact (List.getElem?_eq_some_iff.1 hp').1
        obtain ⟨q, a1, a2, a3⟩ := e3 i ps[i] (List.getElem?_eq_getElem hi)
        rw [hp'] at a1
        cases a1
        rcases a3 (by omega) (by omega) with h1 | h1
        · exact .inl h1
        · rcases hp i ps[i] (List.getElem?_eq_getElem hi) with h2 | h2
          · left
            obtain ⟨-, l, hl, hpre⟩ := h.2 i _ (List.getElem?_eq_getElem hi)
            obtain ⟨-, l', hl', hpre'⟩ := e2.2 i _ hp'
            rcases hl.split hpre h2 with ⟨-, e⟩ | ⟨q', _, e, -⟩
            · have := hpre'.length_le
              rw [hl'.unique hl, ← e] at this
              omega
            · exfalso; omega
          · right; omega

theorem chain_of_path {i : Nat} {ns : List Text} (h : PathOf es i ns) : ∃ l, Chain es i l ∧
    pathNames (es.map (fun e => e.2.1) ++ [kRoot]) l = .ok (kRoot :: ns.dropLast) := by
  induction h with
  | top i d name h =>
    refine ⟨[-1], .top i d name h, ?_⟩
    unfold pathNames pathNames pyGet
    rw [if_neg (by omega), if_pos (by simp)]
    have : ((((es.map (fun e => e.2.1) ++ [kRoot]).length : Nat) : Int) + -1).toNat = (es.map (fun e => e.2.1)).length := by
      simp
    rw [this, List.getElem?_append_right (Nat.le_refl _), Nat.sub_self]
    rfl
  | sub i p d name ns h hp ih =>
    obtain ⟨l, hl, hn⟩ := ih
    refine ⟨p :: l, .sub i p d name l h hl, ?_⟩
    obtain ⟨d', name', q, hq, hns⟩ := hp.last
    have hg : pyGet (es.map (fun e => e.2.1) ++ [kRoot]) (p : Int) = .ok name' := by
      apply pyGet_nat
      rw [List.getElem?_append_left (by rw [List.length_map]; exact (List.getElem?_eq_some_iff.1 hq).1),
        List.getElem?_map, hq]
      rfl
    rw [pathNames, hg, hn]
    dsimp only
    rw [List.dropLast_concat]
    conv_rhs => rw [hns]
    simp

theorem chain_bound (fs : FileSystem es) : ∃ M, ∀ i l, Chain es i l → l.length ≤ M := by
  have : ∀ n, ∃ M, ∀ i l, i < n → Chain es i l → l.length ≤ M := by
    intro n
    induction n with
    | zero => exact ⟨0, by intro i l h; omega⟩
    | succ n ih =>
      obtain ⟨M, hM⟩ := ih
      by_cases hn : n < es.length
      · obtain ⟨ns, hns⟩ := fs.path n hn
        obtain ⟨l0, hl0, -⟩ := chain_of_path hns
        refine ⟨max M l0.length, ?_⟩
        intro i l hi hl
        by_cases e : i = n
        · subst e
          rw [hl.unique hl0]
          exact Nat.le_max_right ..
        · exact Nat.le_trans (hM i l (by omega) hl) (Nat.le_max_left ..)
      · refine ⟨M, ?_⟩
        intro i l hi hl
        have := hl.lt
        exact hM i l (by omega) hl
  obtain ⟨M, hM⟩ := this es.length
  exact ⟨M, fun i l hl => hM i l hl.lt hl⟩

theorem inv_start (fs : FileSystem es) : Inv es (es.map fun e => [parentInt e.2.2]) := by
  refine ⟨by simp, ?_⟩
  intro i p hp
  rw [List.getElem?_map] at hp
  cases he : es[i]? with
  | none => rw [he] at hp; cases hp
  | some e =>
    rw [he] at hp
    cases hp
    obtain ⟨d, name, q⟩ := e
    have hi := (List.getElem?_eq_some_iff.1 he).1
    refine ⟨by simp, ?_⟩
    obtain ⟨ns, hns⟩ := fs.path i hi
    obtain ⟨l, hl, -⟩ := chain_of_path hns
    refine ⟨l, hl, ?_⟩
    cases hl with
    | top _ d' name' h => rw [he] at h; cases h; exact List.prefix_rfl
    | sub _ p' d' name' l h _ => rw [he] at h; cases h; exact ⟨l, rfl⟩

end Paths

/-! ### Placing -/

/-- The file under a path. -/
def find : List Text → Vfs → Option Nat
  | [], .file i => some i
  | [], .dir _ => none
  | _ :: _, .file _ => none
  | k :: ks, .dir d => match getKw k d with
    | none => none
    | some v => find ks v

theorem place_ok {name : Text} {v : Vfs} : ∀ {path : List Text} {d : List (Text × Vfs)},
    (∀ pre, pre <+: path → find pre (.dir d) = none) →
    ∃ d', place name v path d = .ok d' ∧ ∀ ns, find ns (.dir d') =
      if path ++ [name] <+: ns then find (ns.drop (path.length + 1)) v else find ns (.dir d)
  | [], d, _ => by
    refine ⟨_, rfl, ?_⟩
    intro ns
    cases ns with
    | nil => simp [find]
    | cons k ks =>
      rw [find, getKw_setKw]
      by_cases h : k = name
      · subst h
        simp
      · rw [if_neg h, if_neg (by simpa using Ne.symm h), find]
  | j :: path, d, h => by
    rw [place]
    cases hj : getKw j d with
    | none =>
      dsimp only
      obtain ⟨e', he, hf⟩ := place_ok (name := name) (v := v) (path := path) (d := []) (by
        intro pre _
        cases pre <;> simp [find, getKw])
      rw [he]
      refine ⟨_, rfl, ?_⟩
      intro ns
      cases ns with
      | nil => simp [find]
      | cons k ks =>
        rw [find, getKw_setKw]
        by_cases hk : k = j
        · subst hk
          rw [if_pos rfl]
          dsimp only
          have : find ks (.dir []) = none := by cases ks <;> simp [find, getKw]
          rw [hf ks, this, find, hj]
          simp [List.cons_prefix_cons]
        · rw [if_neg hk, find, if_neg (by
            rw [List.cons_append, List.cons_prefix_cons]
            exact fun h => hk h.1.symm)]
    | some x =>
      cases x with
      | file i =>
        have := h [j] (by simp)
        rw [find, hj] at this
        cases this
      | dir e =>
        dsimp only
        obtain ⟨e', he, hf⟩ := place_ok (name := name) (v := v) (path := path) (d := e) (by
          intro pre hp
          have := h (j :: pre) (List.cons_prefix_cons.2 ⟨rfl, hp⟩)
          rwa [find, hj] at this)
        rw [he]
        refine ⟨_, rfl, ?_⟩
        intro ns
        cases ns with
        | nil => simp [find]
        | cons k ks =>
          rw [find, getKw_setKw]
          by_cases hk : k = j
          · subst hk
            rw [if_pos rfl]
            dsimp only
            rw [hf ks, find, hj]
            simp [List.cons_prefix_cons]
          · rw [if_neg hk, find, if_neg (by
              rw [List.cons_append, List.cons_prefix_cons]
              exact fun h => hk h.1.symm)]

/-- After the first `k` entries. -/
def Placed (es : Table) (k : Nat) (root : List (Text × Vfs)) : Prop :=
  (k = 0 → root = []) ∧ (0 < k → ∃ d, root = [(kRoot, .dir d)]) ∧
  ∀ ns i, find (kRoot :: ns) (.dir root) = some i ↔ i < k ∧ (∃ name p, es[i]? = some (false, name, p)) ∧
    PathOf es i ns ∧ ∀ a, Above es a i → a < k → a < i

theorem place_root {name : Text} {v : Vfs} {path : List Text} {root d' : List (Text × Vfs)}
    (hr : root = [] ∨ ∃ d, root = [(kRoot, .dir d)]) (h : place name v (kRoot :: path) root = .ok d') :
    ∃ d, d' = [(kRoot, .dir d)] := by
  rw [place] at h
  rcases hr with rfl | ⟨d, rfl⟩
  · simp only [getKw] at h
    split at h
    · cases h
    · cases h; exact ⟨_, rfl⟩
  · simp only [getKw, if_pos] at h
    split at h
    · cases h
    · rename_i e' _
      cases h; exact ⟨e', by simp [setKw]⟩

theorem place_step {es : Table} (fs : FileSystem es) {k : Nat} {root : List (Text × Vfs)} {d : Bool}
    {name : Text} {p : Option Nat} {ns : List Text} (hk : es[k]? = some (d, name, p)) (hp : PathOf es k ns)
    (h : Placed es k root) :
    ∃ root', place name (if d then .dir [] else .file k) (kRoot :: ns.dropLast) root = .ok root' ∧
      Placed es (k + 1) root' := by
  have hns : ns = ns.dropLast ++ [name] := by
    obtain ⟨d', name', q, hq, e⟩ := hp.last
    rw [hk] at hq
    cases hq
    exact e
  obtain ⟨root', hpl, hf⟩ := place_ok (name := name) (v := if d then .dir [] else .file k)
    (path := kRoot :: ns.dropLast) (d := root) (by
      intro pre hpre
      rcases List.prefix_cons_iff.1 hpre with rfl | ⟨ms, rfl, hms⟩
      · rfl
      · cases hfi : find (kRoot :: ms) (.dir root) with
        | none => rfl
        | some i =>
          exfalso
          obtain ⟨-, ⟨n', q, hi⟩, hpi, -⟩ := (h.2.2 ms i).1 hfi
          have hlt := hms.length_le
          have : ms <+: ns := hms.trans (List.dropLast_prefix ns)
          have hne : ms ≠ ns := by
            intro e
            rw [e, List.length_dropLast] at hlt
            have := List.length_pos_iff.2 hp.ne_nil
            omega
          obtain ⟨n2, q2, h2⟩ := above_dir fs (above_of_prefix fs hpi hp this hne)
          rw [hi] at h2
          cases h2)
  refine ⟨root', hpl, by omega, ?_, ?_⟩
  · intro _
    refine place_root ?_ hpl
    by_cases h0 : k = 0
    · exact .inl (h.1 h0)
    · exact .inr (h.2.1 (by omega))
  intro ms i
  rw [hf]
  have epre : (kRoot :: ns.dropLast ++ [name] <+: kRoot :: ms) ↔ ns <+: ms := by
    rw [List.cons_append, List.cons_prefix_cons, ← hns]
    simp
  have edrop : (kRoot :: ms).drop ((kRoot :: ns.dropLast).length + 1) = ms.drop ns.length := by
    rw [List.drop_succ_cons, List.length_cons]
    congr 1
    conv_rhs => rw [hns]
    simp
  rw [edrop]
  by_cases hpre : ns <+: ms
  · rw [if_pos (epre.2 hpre)]
    have hstrict : ns ≠ ms → PathOf es i ms → Above es k i := fun hne hpi => above_of_prefix fs hp hpi hpre hne
    cases d with
    | true =>
      have hnone : find (ms.drop ns.length) (.dir []) = none := by cases ms.drop ns.length <;> simp [find, getKw]
      rw [if_pos rfl, hnone]
      constructor
      · intro h; cases h
      · rintro ⟨h1, ⟨n', q, hi⟩, hpi, ha⟩
        exfalso
        by_cases e : ns = ms
        · subst e
          have := PathOf.inj fs hp hpi
          subst this
          rw [hk] at hi
          cases hi
        · have := ha k (hstrict e hpi) (by omega)
          omega
    | false =>
      rw [if_neg (by simp)]
      by_cases e : ns = ms
      · subst e
        rw [List.drop_length, find]
        constructor
        · intro hi
          cases hi
          refine ⟨by omega, ⟨name, p, hk⟩, hp, ?_⟩
          intro a ha hlt
          have : a ≠ k := by
            rintro rfl
            have := (prefix_of_above ha hp hp).2
            omega
          omega
        · rintro ⟨-, -, hpi, -⟩
          rw [PathOf.inj fs hp hpi]
      · have hlt : ns.length < ms.length := by
          apply Nat.lt_of_le_of_ne hpre.length_le
          intro hl
          exact e (hpre.eq_of_length hl)
        have hnone : find (ms.drop ns.length) (.file k) = none := by
          cases hd : ms.drop ns.length with
          | nil =>
            have := congrArg List.length hd
            rw [List.length_drop, List.length_nil] at this
            omega
          | cons a t => rfl
        rw [hnone]
        constructor
        · intro h; cases h
        · rintro ⟨-, -, hpi, -⟩
          obtain ⟨n2, q2, h2⟩ := above_dir fs (hstrict e hpi)
          rw [hk] at h2
          cases h2
  · rw [if_neg (mt epre.1 hpre), h.2.2 ms i]
    constructor
    · rintro ⟨h1, h2, h3, h4⟩
      refine ⟨by omega, h2, h3, ?_⟩
      intro a ha hlt
      by_cases e : a = k
      · subst e
        exact absurd (prefix_of_above ha hp h3).1 hpre
      · exact h4 a ha (by omega)
    · rintro ⟨h1, h2, h3, h4⟩
      have hne : i ≠ k := by
        rintro rfl
        rw [PathOf.unique hp h3] at hpre
        exact hpre List.prefix_rfl
      exact ⟨by omega, h2, h3, fun a ha hlt => h4 a ha (by omega)⟩

theorem placeAll_ok {es : Table} (fs : FileSystem es) {ps : List (List Int)} (hl : ps.length = es.length)
    (hps : ∀ i p, ps[i]? = some p → Chain es i p) : ∀ (n k : Nat) (root : List (Text × Vfs)),
    k + n = es.length → Placed es k root →
    ∃ root', placeAll (es.map (fun e => e.2.1) ++ [kRoot]) k ((es.drop k).map fun e => (e.1, e.2.1)) (ps.drop k)
      root = .ok root' ∧ Placed es es.length root'
  | 0, k, root, hk, h => by
    have : k = es.length := by omega
    subst this
    rw [List.drop_length]
    exact ⟨root, by simp [placeAll], h⟩
  | n + 1, k, root, hk, h => by
    have hlt : k < es.length := by omega
    rw [List.drop_eq_getElem_cons hlt, List.drop_eq_getElem_cons (show k < ps.length by omega), List.map_cons]
    have hget0 : es[k]? = some es[k] := List.getElem?_eq_getElem hlt
    generalize es[k] = e at *
    obtain ⟨d, name, p⟩ := e
    have hget : es[k]? = some (d, name, p) := hget0
    obtain ⟨ns, hns⟩ := fs.path k hlt
    obtain ⟨l, hl', hn⟩ := chain_of_path hns
    have hpl : ps[k] = l := (hps k _ (List.getElem?_eq_getElem (by omega))).unique hl'
    obtain ⟨root', hp, hP⟩ := place_step fs hget hns h
    obtain ⟨root'', h1, h2⟩ := placeAll_ok fs hl hps n (k + 1) root' (by omega) hP
    refine ⟨root'', ?_, h2⟩
    rw [placeAll, hpl, hn]
    dsimp only
    rw [hp]
    exact h1

theorem tree_ok {es : Table} (fs : FileSystem es) (hne : es ≠ []) : ∃ N, ∀ fuel, N ≤ fuel → ∃ d,
    tree fuel (es.map fun e => (e.1, e.2.1, parentInt e.2.2)) = some (.ok d) ∧
    ∀ ns i, find ns (.dir d) = some i ↔ (∃ name p, es[i]? = some (false, name, p)) ∧ PathOf es i ns ∧
      ∀ a, Above es a i → a < i := by
  obtain ⟨M, hM⟩ := chain_bound fs
  refine ⟨M, ?_⟩
  intro fuel hfuel
  obtain ⟨ps, h1, h2, h3⟩ := paths_ok M hM fuel _ (inv_start fs) (by
    intro i p _
    right; omega)
  have hstart : Placed es 0 [] := by
    refine ⟨fun _ => rfl, by omega, ?_⟩
    intro ns i
    constructor
    · intro h; cases h
    · rintro ⟨h, -⟩; omega
  obtain ⟨root, h4, h5⟩ := placeAll_ok fs h2 h3 es.length 0 [] (by omega) hstart
  have hpos := List.length_pos_iff.2 hne
  obtain ⟨d, hd⟩ := h5.2.1 hpos
  refine ⟨d, ?_, ?_⟩
  · unfold tree
    rw [List.map_map]
    have e1 : es.map ((fun it : Bool × Text × Int => [it.2.2]) ∘ fun e => (e.1, e.2.1, parentInt e.2.2)) =
        es.map fun e => [parentInt e.2.2] := rfl
    rw [e1, h1]
    dsimp only
    rw [List.map_map, List.map_map]
    have e2 : es.map ((fun it : Bool × Text × Int => it.2.1) ∘ fun e => (e.1, e.2.1, parentInt e.2.2)) =
        es.map fun e => e.2.1 := rfl
    have e3 : es.map ((fun it : Bool × Text × Int => (it.1, it.2.1)) ∘ fun e => (e.1, e.2.1, parentInt e.2.2)) =
        es.map fun e => (e.1, e.2.1) := rfl
    rw [List.drop_zero, List.drop_zero] at h4
    rw [e2, e3, h4]
    dsimp only
    rw [hd]
    simp [getKw]
  · intro ns i
    have := h5.2.2 ns i
    rw [hd, find] at this
    simp only [getKw, if_pos] at this
    rw [this]
    constructor
    · rintro ⟨a1, a2, a3, a4⟩
      exact ⟨a2, a3, fun a ha => a4 a ha (above_lt fs ha)⟩
    · rintro ⟨⟨n', p, a2⟩, a3, a4⟩
      exact ⟨(List.getElem?_eq_some_iff.1 a2).1, ⟨n', p, a2⟩, a3, fun a ha _ => a4 a ha⟩

theorem walk_find {i : Nat} : ∀ {ns : List Text} {v : Vfs}, walk ns v = .ok (.file i) ↔ find ns v = some i
  | [], .file j => by simp [walk, find]
  | [], .dir d => by simp [walk, find]
  | k :: ks, .file j => by simp [walk, find]
  | k :: ks, .dir d => by
    rw [walk, find]
    cases getKw k d with
    | none => simp
    | some v => exact walk_find

theorem splitChar_joinSlash : ∀ {ns : List Text}, ns ≠ [] → (∀ n ∈ ns, '/' ∉ n) →
    splitChar '/' (joinSlash ns) = ns
  | [], h, _ => absurd rfl h
  | [t], _, h => by rw [joinSlash, splitChar_none (h t (List.mem_cons_self ..))]
  | t :: u :: ts, _, h => by
    rw [joinSlash, splitChar_append (h t (List.mem_cons_self ..)),
      splitChar_joinSlash (by simp) fun n hn => h n (List.mem_cons_of_mem _ hn)]

end Verif.Sfs
