import Verif.Model.HspyOld
import Verif.Spec.HspyFile
import Verif.Props.HierDict
/-! Helper lemmas for C129 and C130. -/
namespace Verif.HspyFile
open Verif Verif.HierDict Verif.HierDictSpec

/-! ### Mappings -/

theorem lookup_putKey_same {β : Type} (k : Text) (v : β) : ∀ l, lookup k (putKey k v l) = some v
  | [] => by simp [putKey, lookup]
  | (k', v') :: rest => by
    unfold putKey
    by_cases h : k' = k
    · rw [if_pos h]; simp [lookup]
    · rw [if_neg h, lookup, if_neg h]; exact lookup_putKey_same k v rest

theorem lookup_putKey_ne {β : Type} (k n : Text) (v : β) (hn : n ≠ k) : ∀ l,
    lookup n (putKey k v l) = lookup n l
  | [] => by simp [putKey, lookup, Ne.symm hn]
  | (k', v') :: rest => by
    unfold putKey
    by_cases h : k' = k
    · subst h; rw [if_pos rfl]; simp [lookup, Ne.symm hn]
    · rw [if_neg h, lookup, lookup, lookup_putKey_ne k n v hn rest]

theorem lookup_delKey_same {β : Type} (k : Text) : ∀ l : List (Text × β),
    lookup k (delKey k l) = none
  | [] => rfl
  | (k', v') :: rest => by
    have ih := lookup_delKey_same k rest
    unfold delKey at ih ⊢
    by_cases h : k' = k
    · simpa [h] using ih
    · simpa [h, lookup] using ih

theorem lookup_delKey_ne {β : Type} (k n : Text) (hn : n ≠ k) : ∀ l : List (Text × β),
    lookup n (delKey k l) = lookup n l
  | [] => rfl
  | (k', v') :: rest => by
    have ih := lookup_delKey_ne k n hn rest
    unfold delKey at ih ⊢
    by_cases h : k' = k
    · subst h; simpa [lookup, Ne.symm hn] using ih
    · simp [h, lookup]; rw [← ih]; simp

theorem lookup_of_mem {β : Type} : ∀ (l : List (Text × β)) (k : Text) (v : β),
    (l.map Prod.fst).Nodup → (k, v) ∈ l → lookup k l = some v
  | (k', v') :: rest, k, v, hnd, h => by
    simp only [List.map_cons, List.nodup_cons] at hnd
    rcases List.mem_cons.1 h with e | h
    · cases e; simp [lookup]
    · have : k' ≠ k := by
        intro e; subst e; exact hnd.1 (List.mem_map.2 ⟨_, h, rfl⟩)
      rw [lookup, if_neg this]
      exact lookup_of_mem rest k v hnd.2 h

theorem mem_of_lookup {β : Type} : ∀ (l : List (Text × β)) (k : Text) (v : β),
    lookup k l = some v → (k, v) ∈ l
  | (k', v') :: rest, k, v, h => by
    unfold lookup at h
    by_cases hk : k' = k
    · rw [if_pos hk] at h; cases h; subst hk; exact List.mem_cons_self
    · rw [if_neg hk] at h; exact List.mem_cons_of_mem _ (mem_of_lookup rest k v h)

theorem lookup_some_of_key {β : Type} (l : List (Text × β)) (k : Text) (h : k ∈ l.map Prod.fst) :
    ∃ v, lookup k l = some v := by
  induction l with
  | nil => simp at h
  | cons a rest ih =>
    obtain ⟨k', v'⟩ := a
    by_cases hk : k' = k
    · exact ⟨v', by simp [lookup, hk]⟩
    · simp only [List.map_cons, List.mem_cons] at h
      rcases h with h | h
      · exact absurd h.symm hk
      · obtain ⟨v, hv⟩ := ih h
        exact ⟨v, by simp [lookup, hk, hv]⟩

theorem mem_putKey {β : Type} (k : Text) (v : β) : ∀ l, (k, v) ∈ putKey k v l
  | l => mem_of_lookup _ _ _ (lookup_putKey_same k v l)

theorem keys_putKey {β : Type} (k : Text) (v : β) : ∀ (l : List (Text × β)) (x : Text),
    x ∈ (putKey k v l).map Prod.fst ↔ x = k ∨ x ∈ l.map Prod.fst
  | [], x => by simp [putKey]
  | (k', v') :: rest, x => by
    unfold putKey
    by_cases h : k' = k
    · subst h; rw [if_pos rfl]; simp
    · rw [if_neg h]
      simp only [List.map_cons, List.mem_cons, keys_putKey k v rest x]
      tauto

theorem nodup_putKey {β : Type} (k : Text) (v : β) : ∀ (l : List (Text × β)),
    (l.map Prod.fst).Nodup → ((putKey k v l).map Prod.fst).Nodup
  | [], _ => by simp [putKey]
  | (k', v') :: rest, h => by
    simp only [List.map_cons, List.nodup_cons] at h
    unfold putKey
    by_cases hk : k' = k
    · subst hk; rw [if_pos rfl]; simpa using h
    · rw [if_neg hk]
      simp only [List.map_cons, List.nodup_cons, keys_putKey]
      exact ⟨fun hx => hx.elim hk h.1, nodup_putKey k v rest h.2⟩

/-- A dictionary with the same keys and, under each key, the same value. -/
theorem sameDict_of_mem : ∀ (d e : Dict), (d.map Prod.fst).Nodup →
    (e.map Prod.fst).Perm (d.map Prod.fst) →
    (∀ k v, (k, v) ∈ d → ∃ v', (k, v') ∈ e ∧ Same v v') → SameDict d e
  | [], e, _, hp, _ => by
    simp only [SameDict]
    simpa using hp
  | (k, v) :: rest, e, hnd, hp, h => by
    simp only [List.map_cons, List.nodup_cons] at hnd
    obtain ⟨v', hm, hs⟩ := h k v List.mem_cons_self
    obtain ⟨s, u, rfl⟩ := List.append_of_mem hm
    simp only [SameDict]
    refine ⟨v', s ++ u, List.perm_middle, hs, sameDict_of_mem rest (s ++ u) hnd.2 ?_ ?_⟩
    · have h1 : ((k, v') :: (s ++ u)).map Prod.fst |>.Perm (k :: rest.map Prod.fst) :=
        ((List.perm_middle.map Prod.fst).symm).trans (by simpa using hp)
      exact List.Perm.cons_inv (a := k) (by simpa using h1)
    · intro k2 v2 hm2
      obtain ⟨w, hw, hsw⟩ := h k2 v2 (List.mem_cons_of_mem _ hm2)
      refine ⟨w, ?_, hsw⟩
      have hne : k2 ≠ k := by
        intro e; subst e; exact hnd.1 (List.mem_map.2 ⟨_, hm2, rfl⟩)
      simp only [List.mem_append, List.mem_cons, Prod.mk.injEq] at hw ⊢
      rcases hw with hw | ⟨e, _⟩ | hw
      · exact .inl hw
      · exact absurd e hne
      · exact .inr hw

theorem sameDict_mem {d e : Dict} (h : SameDict d e) {k : Text} {v : Val} (hm : (k, v) ∈ d) :
    ∃ v', (k, v') ∈ e ∧ Same v v' := Props.HierDict.C18_same_lookup d e h k v hm

theorem sameDict_lookup {d e : Dict} (h : SameDict d e) (hnd : (d.map Prod.fst).Nodup)
    {k : Text} {v : Val} (hl : lookup k d = some v) : ∃ v', lookup k e = some v' ∧ Same v v' := by
  obtain ⟨v', h1, h2⟩ := sameDict_mem h (mem_of_lookup _ _ _ hl)
  exact ⟨v', lookup_of_mem _ _ _ ((sameDict_keys h).nodup_iff.2 hnd) h1, h2⟩

/-! ### Storing a dictionary -/

/-- Writing a storable dictionary into an empty group, and reading the group. -/
theorem stored (env : Env) (horder : ∀ l, (env.order l).Perm l) (d : Dict)
    (hd : Storable (.dict d)) :
    ∃ A I d', dict2group env d ⟨[], []⟩ = .ok ⟨A, I⟩ ∧ group2dict env ⟨A, I⟩ = .ok d' ∧
      SameDict d d' := by
  obtain ⟨g, d', h1, h2, h3⟩ := Props.HierDict.C18_dict_roundtrip_partial env horder d hd
  exact ⟨g.attrs, g.items, d', h1, h2, h3⟩

/-- The dictionary `d` is stored under `name`. -/
def Holds (env : Env) (g : Group) (name : Text) (d : Dict) : Prop :=
  ∃ A I d', lookup name g.items = some (.group A I) ∧ group2dict env ⟨A, I⟩ = .ok d' ∧
    SameDict d d'

/-- `g'` differs from `g` in the items `P` only. -/
def OnlyItems (g g' : Group) (P : Text → Prop) : Prop :=
  g'.attrs = g.attrs ∧ ∀ n, ¬ P n → lookup n g'.items = lookup n g.items

theorem storeUnder_fresh (env : Env) (horder : ∀ l, (env.order l).Perm l) (name : Text) (d : Dict)
    (hd : Storable (.dict d)) (g : Group)
    (hf : lookup name g.items = none ∨ lookup name g.items = some (.group [] [])) :
    ∃ g', storeUnder env false name d g = .ok g' ∧ Holds env g' name d ∧
      OnlyItems g g' (fun n => n = name) := by
  obtain ⟨A, I, d', h1, h2, h3⟩ := stored env horder d hd
  refine ⟨putItem g name (.group A I), ?_, ⟨A, I, d', lookup_putKey_same _ _ _, h2, h3⟩, rfl,
    fun n hn => lookup_putKey_ne _ _ _ hn _⟩
  have hr : requireGroup g name = .ok ⟨[], []⟩ := by
    unfold requireGroup
    rcases hf with h | h <;> rw [h]
  unfold storeUnder storeDict
  rw [hr]
  simp [h1]

theorem axisName_inj {i j : Nat} (h : nAxis ++ decChars i = nAxis ++ decChars j) : i = j :=
  decChars_inj (List.append_cancel_left h)

theorem writeAxes_ok (env : Env) (horder : ∀ l, (env.order l).Perm l) :
    ∀ (axes : List Dict) (i : Nat) (g : Group), (∀ a ∈ axes, Storable (.dict a)) →
      ∃ g', writeAxes env false i axes g = .ok g' ∧
        (∀ j d, axes[j]? = some d → Holds env g' (nAxis ++ decChars (i + j)) d) ∧
        OnlyItems g g' (fun n => ∃ j, j < axes.length ∧ n = nAxis ++ decChars (i + j))
  | [], i, g, _ => ⟨g, rfl, fun j d h => by simp at h, rfl, fun n _ => rfl⟩
  | a :: axes, i, g, h => by
    obtain ⟨g1, hw1, ho1, hi1⟩ := storeUnder_fresh env horder (nAxis ++ decChars i) a
      (h a List.mem_cons_self) { g with items := delKey (nAxis ++ decChars i) g.items }
      (.inl (lookup_delKey_same _ _))
    obtain ⟨g2, hw2, ho2, hi2⟩ := writeAxes_ok env horder axes (i + 1) g1
      fun b hb => h b (List.mem_cons_of_mem _ hb)
    refine ⟨g2, ?_, ?_, ?_, ?_⟩
    · simp only [writeAxes, writeAxis, hw1]; exact hw2
    · intro j d hj
      rcases j with _ | j
      · simp only [List.getElem?_cons_zero, Option.some.injEq] at hj
        subst hj
        obtain ⟨A, I, d', h1, h2, h3⟩ := ho1
        refine ⟨A, I, d', ?_, h2, h3⟩
        rw [Nat.add_zero, hi2.2, h1]
        rintro ⟨j, _, e⟩
        have := axisName_inj e
        omega
      · simp only [List.getElem?_cons_succ] at hj
        have := ho2 j d hj
        rwa [show i + 1 + j = i + (j + 1) by omega] at this
    · rw [hi2.1, hi1.1]
    · intro n hn
      rw [hi2.2 n, hi1.2 n]
      · exact lookup_delKey_ne _ _ (fun e => hn ⟨0, by simp, by simpa using e⟩) _
      · exact fun e => hn ⟨0, by simp, by simpa using e⟩
      · rintro ⟨j, hj, e⟩
        exact hn ⟨j + 1, by simpa using hj, by rw [e, show i + 1 + j = i + (j + 1) by omega]⟩

theorem checkNavigate_ok : ∀ axes : List Dict, (∀ a ∈ axes, nNavigate ∈ a.map Prod.fst) →
    checkNavigate axes = .ok ()
  | [], _ => rfl
  | a :: axes, h => by
    obtain ⟨v, hv⟩ := lookup_some_of_key a nNavigate (h a List.mem_cons_self)
    simp only [checkNavigate, hasKey, hv, Option.isSome_some, if_true]
    exact checkNavigate_ok axes fun b hb => h b (List.mem_cons_of_mem _ hb)

theorem putPackage_items : ∀ (l : List (Text × Text)) (g : Group),
    (putPackage l g).items = g.items
  | [], _ => rfl
  | (k, v) :: rest, g => by rw [putPackage, putPackage_items rest]; rfl

/-! ### Writing the group of a signal -/

theorem notAxis (k : Text) (hk : k.take 5 ≠ nAxis) (r : Text) : k ≠ nAxis ++ r := by
  intro e; subst e; exact hk rfl

theorem holds_mono {env : Env} {g g' : Group} {P : Text → Prop} (h : OnlyItems g g' P)
    {name : Text} (hn : ¬ P name) {d : Dict} (hh : Holds env g name d) : Holds env g' name d := by
  obtain ⟨A, I, d', h1, h2, h3⟩ := hh
  exact ⟨A, I, d', by rw [h.2 name hn, h1], h2, h3⟩

theorem onlyItems_put (g : Group) (name : Text) (n : Node) :
    OnlyItems g (putItem g name n) (fun m => m = name) :=
  ⟨rfl, fun m hm => lookup_putKey_ne _ _ _ hm _⟩

/-- The four dictionaries, written into a group that has none of them yet. -/
theorem store_four (env : Env) (horder : ∀ l, (env.order l).Perm l) (md om lr att : Dict)
    (hmd : Storable (.dict md)) (hom : Storable (.dict om)) (hlr : Storable (.dict lr))
    (hatt : Storable (.dict att)) (g : Group)
    (h1 : lookup nMetadata g.items = none ∨ lookup nMetadata g.items = some (.group [] []))
    (h2 : lookup nOriginal g.items = none) (h3 : lookup nLearning g.items = none)
    (h4 : lookup nAttributes g.items = none) :
    ∃ ga gb gc g', storeUnder env false nMetadata md g = .ok ga ∧
      storeUnder env false nOriginal om ga = .ok gb ∧
      storeUnder env false nLearning lr gb = .ok gc ∧
      storeUnder env false nAttributes att gc = .ok g' ∧
      Holds env g' nMetadata md ∧ Holds env g' nOriginal om ∧ Holds env g' nLearning lr ∧
      Holds env g' nAttributes att ∧
      OnlyItems g g' (fun n => n = nMetadata ∨ n = nOriginal ∨ n = nLearning ∨ n = nAttributes) := by
  obtain ⟨ga, wa, ha, ia⟩ := storeUnder_fresh env horder nMetadata md hmd g h1
  obtain ⟨gb, wb, hb, ib⟩ := storeUnder_fresh env horder nOriginal om hom ga
    (.inl (by rw [ia.2 _ (by decide), h2]))
  obtain ⟨gc, wc, hc, ic⟩ := storeUnder_fresh env horder nLearning lr hlr gb
    (.inl (by rw [ib.2 _ (by decide), ia.2 _ (by decide), h3]))
  obtain ⟨g', wd, hd, id_⟩ := storeUnder_fresh env horder nAttributes att hatt gc
    (.inl (by rw [ic.2 _ (by decide), ib.2 _ (by decide), ia.2 _ (by decide), h4]))
  refine ⟨ga, gb, gc, g', wa, wb, wc, wd, ?_, ?_, ?_, hd, ?_, ?_⟩
  · exact holds_mono id_ (by decide) (holds_mono ic (by decide) (holds_mono ib (by decide) ha))
  · exact holds_mono id_ (by decide) (holds_mono ic (by decide) hb)
  · exact holds_mono id_ (by decide) hc
  · rw [id_.1, ic.1, ib.1, ia.1]
  · intro n hn
    simp only [not_or] at hn
    rw [id_.2 n hn.2.2.2, ic.2 n hn.2.2.1, ib.2 n hn.2.1, ia.2 n hn.1]

/-- What the group of a signal holds after writing. -/
structure Written (env : FileEnv) (s : Signal) (g g' : Group) : Prop where
  attrs : g'.attrs = (putPackage s.package g).attrs
  axes : ∀ j d, s.axes[j]? = some d → Holds env.toEnv g' (nAxis ++ decChars j) d
  metadata : Holds env.toEnv g' nMetadata s.metadata
  original : Holds env.toEnv g' nOriginal s.originalMetadata
  learning : Holds env.toEnv g' nLearning s.learningResults
  attributes : Holds env.toEnv g' nAttributes s.attributes
  data : lookup nData g'.items = some (.dset (.arr s.data))
  others : ∀ n, (∀ r, n ≠ nAxis ++ r) → n ∉ [nMetadata, nOriginal, nLearning, nAttributes, nData] →
    lookup n g'.items = lookup n g.items

theorem writeGroup_fresh (env : FileEnv) (horder : ∀ l, (env.order l).Perm l)
    (same : Nat → Nat → Bool) (s : Signal) (g : Group)
    (haxes : ∀ a ∈ s.axes, Storable (.dict a) ∧ nNavigate ∈ a.map Prod.fst)
    (hmd : Storable (.dict s.metadata)) (hom : Storable (.dict s.originalMetadata))
    (hlr : Storable (.dict s.learningResults)) (hatt : Storable (.dict s.attributes))
    (hfree : ∀ n ∈ [nMetadata, nOriginal, nLearning, nAttributes], lookup n g.items = none) :
    ∃ g', writeGroup env false true same s g = .ok g' ∧ Written env s g g' := by
  obtain ⟨g1, w1, ax1, i1⟩ := writeAxes_ok env.toEnv horder s.axes 0 (putPackage s.package g)
    (fun a ha => (haxes a ha).1)
  have keep1 : ∀ n, (∀ r, n ≠ nAxis ++ r) → lookup n g1.items = lookup n g.items := by
    intro n hn
    rw [i1.2 n (by rintro ⟨j, _, e⟩; exact hn _ e), putPackage_items]
  have hna : ∀ n ∈ [nMetadata, nOriginal, nLearning, nAttributes, nData], ∀ r, n ≠ nAxis ++ r := by
    intro n hn
    apply notAxis
    revert n
    decide
  have hm1 : lookup nMetadata g1.items = none := by
    rw [keep1 _ (hna _ (by simp)), hfree _ (by simp)]
  have hreq : requireGroup g1 nMetadata = .ok ⟨[], []⟩ := by unfold requireGroup; rw [hm1]
  have i2 := onlyItems_put g1 nMetadata (.group [] [])
  have i3 := onlyItems_put (putItem g1 nMetadata (.group [] [])) nData (.dset (.arr s.data))
  have free3 : ∀ n ∈ [nOriginal, nLearning, nAttributes],
      lookup n (putItem (putItem g1 nMetadata (.group [] [])) nData (.dset (.arr s.data))).items
        = none := by
    intro n hn
    rw [i3.2 n (by revert n; decide), i2.2 n (by revert n; decide), keep1, hfree]
    · simp only [List.mem_cons, List.not_mem_nil, or_false] at hn ⊢; exact .inr hn
    · apply hna; simp only [List.mem_cons, List.not_mem_nil, or_false] at hn ⊢; tauto
  obtain ⟨ga, gb, gc, g', wa, wb, wc, wd, ha, hb, hc, hd, i4⟩ := store_four env.toEnv horder
    s.metadata s.originalMetadata s.learningResults s.attributes hmd hom hlr hatt
    (putItem (putItem g1 nMetadata (.group [] [])) nData (.dset (.arr s.data)))
    (.inr (by rw [i3.2 _ (by decide)]; exact lookup_putKey_same _ _ _))
    (free3 _ (by simp)) (free3 _ (by simp)) (free3 _ (by simp))
  have keep : ∀ n, n ∉ [nMetadata, nOriginal, nLearning, nAttributes, nData] →
      lookup n g'.items = lookup n g1.items := by
    intro n hn
    simp only [List.mem_cons, List.not_mem_nil, or_false, not_or] at hn
    rw [i4.2 n (by tauto), i3.2 n (by tauto), i2.2 n (by tauto)]
  refine ⟨g', ?_, ?_, ?_, ha, hb, hc, hd, ?_, ?_⟩
  · simp only [writeGroup, w1, bind, Except.bind, hreq, writeData, if_true,
      checkNavigate_ok s.axes (fun a ha => (haxes a ha).2), overwriteData, Bool.false_eq_true,
      if_false, wa, wb, wc]
    exact wd
  · rw [i4.1, i3.1, i2.1, i1.1]
  · intro j d hj
    obtain ⟨A, I, d', h1, h2, h3⟩ := ax1 j d hj
    refine ⟨A, I, d', ?_, h2, h3⟩
    rw [Nat.zero_add] at h1
    rw [keep, h1]
    intro hn
    exact hna _ hn _ rfl
  · rw [i4.2 _ (by decide)]
    exact lookup_putKey_same _ _ _
  · intro n hn1 hn2
    rw [keep n hn2, keep1 n hn1]

/-! ### Reading the group of a signal -/

theorem readUnder_holds {env : FileEnv} {g : Group} {name : Text} {d : Dict}
    (h : Holds env.toEnv g name d) : ∃ d', readUnder env name g = .ok d' ∧ SameDict d d' := by
  obtain ⟨A, I, d', h1, h2, h3⟩ := h
  exact ⟨d', by unfold readUnder; rw [h1]; exact h2, h3⟩

theorem readAxes_holds (env : FileEnv) (g : Group) : ∀ (axes : List Dict) (i : Nat),
    (∀ j d, axes[j]? = some d → Holds env.toEnv g (nAxis ++ decChars (i + j)) d) →
    ∃ ds, readAxes env g i axes.length = .ok ds ∧ List.Forall₂ SameDict axes ds
  | [], i, _ => ⟨[], rfl, .nil⟩
  | a :: axes, i, h => by
    obtain ⟨d, h1, h2⟩ := readUnder_holds (by simpa using h 0 a rfl)
    obtain ⟨ds, h3, h4⟩ := readAxes_holds env g axes (i + 1) (by
      intro j d hj
      have := h (j + 1) d (by simpa using hj)
      rwa [show i + (j + 1) = i + 1 + j by omega] at this)
    exact ⟨d :: ds, by simp only [List.length_cons, readAxes, h1, h3], .cons h2 h4⟩

theorem fixTitle_id {md : Dict} {d : Dict} {t : Text} (h1 : lookup nGeneral md = some (.dict d))
    (h2 : lookup nTitle d = some (.text t)) (h3 : t ≠ nUnnamed) : fixTitle md = .ok md := by
  simp [fixTitle, h1, h2, h3]

end Verif.HspyFile
