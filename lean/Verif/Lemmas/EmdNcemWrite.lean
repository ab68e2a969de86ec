import Verif.Lemmas.EmdNcemMeta
import Verif.Props.SignalChunks
/-! Lemmas for EMD files: the file that is written. -/
namespace Verif.Lemmas.EmdNcem
open Verif Verif.EmdNcem Verif.Spec.EmdNcem

/-! ### Lookups -/

theorem getKw_app_right {α : Type} {k : Text} : ∀ {a b : List (Text × α)}, k ∉ a.map Prod.fst → getKw k (a ++ b) = getKw k b
  | [], _, _ => rfl
  | e :: a, b, h => by
    rw [List.map_cons, List.mem_cons, not_or] at h
    rw [List.cons_append, getKw, if_neg (fun e => h.1 e.symm), getKw_app_right h.2]

theorem getKw_app_left {α : Type} {k : Text} {v : α} : ∀ {a b : List (Text × α)}, getKw k a = some v → getKw k (a ++ b) = some v
  | [], _, h => by simp [getKw] at h
  | e :: a, b, h => by
    rw [getKw] at h
    rw [List.cons_append, getKw]
    split
    · rename_i hk
      rwa [if_pos hk] at h
    · rename_i hk
      rw [if_neg hk] at h
      exact getKw_app_left h

theorem getKw_map_fun {α β : Type} {key : β → Text} {val : β → α} {x : β} : ∀ {l : List β}, (∀ b ∈ l, key b = key x → b = x) → x ∈ l →
    getKw (key x) (l.map fun b => (key b, val b)) = some (val x)
  | b :: l, hi, h => by
    rw [List.map_cons, getKw]
    split
    · rename_i hk
      rw [hi b (by simp) hk]
    · rename_i hk
      rcases List.mem_cons.1 h with rfl | h
      · exact absurd rfl hk
      · exact getKw_map_fun (fun b hb => hi b (by simp [hb])) h

/-! ### Attributes -/

theorem storeAll_ok {d : List (Text × Option V)} (h : Stored d) : ∃ a, storeAll d = .ok a ∧
    ∀ k v, getKw k a = some v ↔ ∃ d₁ d₂, d = d₁ ++ (k, some v) :: d₂ ∧ k ∉ d₂.map Prod.fst := by
  have key : ∀ (d : List (Text × Option V)) (b : Attrs), Stored d → ∃ a, d.foldlM (fun a e => match e.2 with
      | some v => (.ok (setKw e.1 v a) : Py Attrs)
      | none => .error .typeError) b = .ok a ∧
      ∀ k v, getKw k a = some v ↔ (∃ d₁ d₂, d = d₁ ++ (k, some v) :: d₂ ∧ k ∉ d₂.map Prod.fst) ∨ (k ∉ d.map Prod.fst ∧ getKw k b = some v) := by
    intro d
    induction d with
    | nil => intro b _; exact ⟨b, rfl, fun k v => by simp⟩
    | cons e d ih =>
      intro b hs
      obtain ⟨k0, o⟩ := e
      cases o with
      | none => exact absurd rfl (hs (k0, none) (by simp))
      | some v0 =>
        obtain ⟨a, ha, hl⟩ := ih (setKw k0 v0 b) (fun e he => hs e (by simp [he]))
        refine ⟨a, ?_, ?_⟩
        · rw [List.foldlM_cons]
          exact ha
        · intro k v
          rw [hl k v, getKw_setKw]
          constructor
          · rintro (⟨d₁, d₂, rfl, h2⟩ | ⟨h1, h2⟩)
            · exact .inl ⟨(k0, some v0) :: d₁, d₂, rfl, h2⟩
            · by_cases hk : k = k0
              · subst hk
                rw [if_pos rfl] at h2
                cases h2
                exact .inl ⟨[], d, rfl, h1⟩
              · rw [if_neg hk] at h2
                exact .inr ⟨by simp only [List.map_cons, List.mem_cons, not_or]; exact ⟨hk, h1⟩, h2⟩
          · rintro (⟨d₁, d₂, h1, h2⟩ | ⟨h1, h2⟩)
            · cases d₁ with
              | nil =>
                rw [List.nil_append] at h1
                have h1 := List.cons.inj h1
                have h3 := Prod.mk.inj h1.1
                obtain ⟨rfl, hv⟩ := h3
                cases hv
                rw [h1.2]
                exact .inr ⟨h2, by rw [if_pos rfl]⟩
              | cons e d₁ =>
                rw [List.cons_append] at h1
                exact .inl ⟨d₁, d₂, (List.cons.inj h1).2, h2⟩
            · simp only [List.map_cons, List.mem_cons, not_or] at h1
              exact .inr ⟨h1.2, by rw [if_neg h1.1]; exact h2⟩
  obtain ⟨a, ha, hl⟩ := key d [] h
  refine ⟨a, ha, fun k v => ?_⟩
  rw [hl]
  simp [getKw]

/-- What the groups of the metadata hold. -/
def Kept (s : In) (n : Text) (a : Attrs) : Prop :=
  ∀ k v, getKw k a = some v ↔ ∃ d, getKw n s.original = some (.dict d) ∧ ∃ d₁ d₂, d = d₁ ++ (k, some v) :: d₂ ∧ k ∉ d₂.map Prod.fst

theorem omObjects_ok {s : In} (h : ∀ n ∈ groupNames, getKw n s.original = none ∨ ∃ d, getKw n s.original = some (.dict d) ∧ Stored d) :
    ∃ att : Text → Attrs, omObjects s.original = .ok (groupNames.map fun n => (n, .group (att n))) ∧ ∀ n ∈ groupNames, Kept s n (att n) := by
  have key : ∀ n, ∃ a, n ∈ groupNames → omAttrs s.original n = .ok a ∧ Kept s n a := by
    intro n
    by_cases hn : n ∈ groupNames
    · rcases h n hn with h | ⟨d, h, hs⟩
      · refine ⟨[], fun _ => ⟨by unfold omAttrs; rw [h], fun k v => ?_⟩⟩
        rw [h]
        simp [getKw]
      · obtain ⟨a, ha, hl⟩ := storeAll_ok hs
        refine ⟨a, fun _ => ⟨by unfold omAttrs; rw [h]; exact ha, fun k v => ?_⟩⟩
        rw [hl, h]
        constructor
        · intro hx; exact ⟨d, rfl, hx⟩
        · rintro ⟨d', hd, hx⟩; cases hd; exact hx
    · exact ⟨[], fun e => absurd e hn⟩
  choose att hatt using key
  refine ⟨att, ?_, fun n hn => (hatt n hn).2⟩
  unfold omObjects
  apply Verif.Props.JobinYvon.mapM_ok
  intro n hn
  rw [(hatt n hn).1]
  rfl

theorem setAttr_last {p k : Text} {v : V} {a : Attrs} {es : List (Text × Obj)} (h : p ∉ es.map Prod.fst) :
    setAttr p k v (es ++ [(p, .group a)]) = es ++ [(p, .group (setKw k v a))] := by
  unfold setAttr
  rw [List.map_append]
  congr 1
  · conv_rhs => rw [← List.map_id es]
    apply List.map_congr_left
    intro e he
    rw [if_neg (fun e' : e.1 = p => h (e' ▸ List.mem_map.2 ⟨e, he, rfl⟩))]
    rfl
  · simp

theorem setSignal_last {p : Text} {es : List (Text × Obj)} (h : p ∉ es.map Prod.fst) : ∀ {sig : List (Text × Option V)} {a : Attrs},
    ∃ a', setSignal p sig (es ++ [(p, .group a)]) = es ++ [(p, .group a')] ∧
      ∀ k v, getKw k a' = some v ↔ (∃ d₁ d₂, sig = d₁ ++ (k, some v) :: d₂ ∧ ∀ w, (k, some w) ∉ d₂) ∨
        ((∀ w, (k, some w) ∉ sig) ∧ getKw k a = some v)
  | [], a => ⟨a, rfl, fun k v => by simp⟩
  | (k0, none) :: sig, a => by
    obtain ⟨a', h1, h2⟩ := setSignal_last (sig := sig) (a := a) h
    refine ⟨a', h1, fun k v => ?_⟩
    rw [h2]
    constructor
    · rintro (⟨d₁, d₂, rfl, h3⟩ | ⟨h3, h4⟩)
      · exact .inl ⟨(k0, none) :: d₁, d₂, rfl, h3⟩
      · exact .inr ⟨fun w hw => by
          rcases List.mem_cons.1 hw with hw | hw
          · simp at hw
          · exact h3 w hw, h4⟩
    · rintro (⟨d₁, d₂, h3, h4⟩ | ⟨h3, h4⟩)
      · cases d₁ with
        | nil => 
          have := (List.cons.inj h3).1
          simp at this
        | cons e d₁ => exact .inl ⟨d₁, d₂, (List.cons.inj h3).2, h4⟩
      · exact .inr ⟨fun w hw => h3 w (List.mem_cons_of_mem _ hw), h4⟩
  | (k0, some v0) :: sig, a => by
    obtain ⟨a', h1, h2⟩ := setSignal_last (sig := sig) (a := setKw k0 v0 a) h
    refine ⟨a', ?_, fun k v => ?_⟩
    · rw [← h1, ← setAttr_last h]
      rfl
    rw [h2, getKw_setKw]
    constructor
    · rintro (⟨d₁, d₂, rfl, h3⟩ | ⟨h3, h4⟩)
      · exact .inl ⟨(k0, some v0) :: d₁, d₂, rfl, h3⟩
      · by_cases hk : k = k0
        · subst hk
          rw [if_pos rfl] at h4
          cases h4
          exact .inl ⟨[], sig, rfl, h3⟩
        · rw [if_neg hk] at h4
          exact .inr ⟨fun w hw => by
            rcases List.mem_cons.1 hw with hw | hw
            · exact hk (Prod.mk.inj hw).1
            · exact h3 w hw, h4⟩
    · rintro (⟨d₁, d₂, h3, h4⟩ | ⟨h3, h4⟩)
      · cases d₁ with
        | nil => 
          have h5 := List.cons.inj h3
          obtain ⟨rfl, h6⟩ := Prod.mk.inj h5.1
          cases h6
          rw [h5.2]
          exact .inr ⟨h4, by rw [if_pos rfl]⟩
        | cons e d₁ => exact .inl ⟨d₁, d₂, (List.cons.inj h3).2, h4⟩
      · have hk : k ≠ k0 := fun e => h3 v0 (by simp [e])
        exact .inr ⟨fun w hw => h3 w (List.mem_cons_of_mem _ hw), by rw [if_neg hk]; exact h4⟩

/-! ### Units and dimensions -/

theorem join_under : ∀ {u : Text}, (joinWith ['_'] (u.map fun c => [c])).filter (· ≠ '_') = u.filter (· ≠ '_')
  | [] => rfl
  | [c] => by simp [joinWith]
  | c :: d :: u => by
    have ih := join_under (u := d :: u)
    simp only [List.map_cons] at ih ⊢
    rw [joinWith, List.filter_append, List.filter_append, ih, List.filter_cons (x := c) (xs := d :: u)]
    split <;> simp_all

theorem units_ok {env : Env} {o : Option Text} (h : ∀ u, o = some u → Unit u) : ∃ w, UnitText env (unitsText o) w ∧
    (∀ u, o = some u → Canon env u w) ∧ (o = none → Canon env [] w) := by
  cases o with
  | none =>
    refine ⟨(env.pint []).getD [], ?_, fun u hu => by simp at hu, fun _ => ?_⟩
    · left
      refine ⟨by simp [unitsText], .inr (.inr ⟨by simp [unitsText], by simp [unitsText], ?_⟩)⟩
      show Canon env [] _
      unfold Canon
      cases env.pint [] <;> simp
    · unfold Canon
      cases env.pint [] <;> simp
  | some u =>
    obtain ⟨h0, h1, h2, h3⟩ := h u rfl
    have hc : Canon env u ((env.pint u).getD u) := by
      unfold Canon
      cases env.pint u <;> simp
    refine ⟨(env.pint u).getD u, ?_, fun u' hu => by cases hu; exact hc, fun e => by simp at e⟩
    right
    have hmem : ∀ x, x ∈ joinWith ['_'] (u.map fun c => [c]) → x = '_' ∨ x ∈ u := by
      intro x hx
      rcases mem_join hx with hx | ⟨p, hp, hx⟩
      · left; simpa using hx
      · right
        obtain ⟨c, hc, rfl⟩ := List.mem_map.1 hp
        rw [List.mem_singleton] at hx
        exact hx ▸ hc
    have hf : (joinWith ['_'] (u.map fun c => [c])).filter (· ≠ '_') = u := by
      rw [join_under, List.filter_eq_self]
      intro c hc
      have : c ≠ '_' := fun e => h1 (e ▸ hc)
      simpa using this
    refine ⟨[u], by simp, ?_, hc⟩
    have := Bracketed.cons (pre := []) (a := joinWith ['_'] (u.map fun c => [c])) (t := []) (l := []) (by simp) ?_ ?_ ?_ (.none (by simp))
    · rw [hf] at this
      exact this
    · intro e
      rw [e] at hf
      exact h0 hf.symm
    · intro hx
      rcases hmem _ hx with hx | hx
      · revert hx; decide
      · exact h2 hx
    · intro hx
      rcases hmem _ hx with hx | hx
      · revert hx; decide
      · exact h3 hx

/-- What an axis of the signal is in the file. -/
def toDim (env : Env) (a : InAxis) : Dim :=
  ⟨a.offset, a.scale, some (a.name.getD []), some (match a.units with
    | none => (env.pint []).getD []
    | some u => (env.pint u).getD u)⟩

theorem canon_getD' (env : Env) (u : Text) : Canon env u ((env.pint u).getD u) := by
  unfold Canon
  cases env.pint u <;> simp

theorem canon_unique {env : Env} {u w w' : Text} (h : Canon env u w) (h' : Canon env u w') : w = w' := by
  rw [← canon_getD h, ← canon_getD h']

theorem dimDset_ok {env : Env} (hm : ∀ x, env.mean [x] = x) {a : InAxis} (hs : env.sub (env.add a.offset a.scale) a.offset = a.scale)
    (hu : ∀ u, a.units = some u → Unit u) {f : File} {p : Text} (h : getKw p f.entries = some (.dset (dimDset env a))) :
    HoldsDim env f p (toDim env a) := by
  refine ⟨_, h, ?_, ?_, ?_⟩
  · left
    refine ⟨rfl, 0, fun i => if i = 0 then a.offset else env.add a.offset a.scale, rfl, rfl, rfl, ?_, ?_⟩
    · intro i hi
      have : i = 0 := by omega
      subst this
      exact hs
    · exact hm _
  · right
    exact ⟨_, rfl, .inl rfl⟩
  · refine ⟨some (unitsText a.units), .inr ⟨_, rfl, .inl rfl⟩, .inr ⟨_, _, rfl, rfl, ?_⟩⟩
    obtain ⟨w, h1, h2, h3⟩ := units_ok (env := env) hu
    cases hx : a.units with
    | none =>
      rw [hx] at h1
      dsimp only
      rw [canon_unique (canon_getD' env []) (h3 hx)]
      exact h1
    | some u =>
      rw [hx] at h1
      dsimp only
      rw [canon_unique (canon_getD' env u) (h2 u hx)]
      exact h1

theorem flatIndex_surj : ∀ {shape : List Nat} {p : Nat}, p < size shape → ∃ idx, InBounds shape idx ∧ flatIndex shape idx = p
  | [], p, h => ⟨[], .nil, by simp [size] at h; simp [flatIndex, h]⟩
  | n :: ns, p, h => by
    rw [size] at h
    have hpos : 0 < size ns := by
      rcases Nat.eq_zero_or_pos (size ns) with h0 | h0
      · rw [h0] at h; omega
      · exact h0
    obtain ⟨is, hi, he⟩ := flatIndex_surj (shape := ns) (p := p % size ns) (Nat.mod_lt _ hpos)
    refine ⟨p / size ns :: is, .cons (Nat.div_lt_of_lt_mul (by rw [Nat.mul_comm]; exact h)) hi, ?_⟩
    rw [flatIndex, he]
    exact Nat.div_add_mod' p (size ns)

end Verif.Lemmas.EmdNcem
