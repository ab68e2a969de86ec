import Verif.Lemmas.HierDict
/-! Property C18: nested dictionaries survive storage in a hierarchical file. -/
namespace Verif.Props.HierDict
open Verif Verif.HierDict Verif.HierDictSpec

theorem attr_item {env : Env} {k n : Text} {v v' : Val} {a : Attr}
    (hw : ∀ g, writeItem env k v g = .ok (putAttr g n a)) (hn : attrKey n = k)
    (hr : readAttr n a = .ok [(k, v')]) (hs : Same v v') : ItemOK env k v := by
  refine ⟨[(n, a)], [], [(k, v')], [], v', ?_, ?_, ?_, rfl, hs, ?_, ?_⟩
  · intro g hg
    rw [hw g, putAttr, putKey_new]
    · simp
    · intro h; exact hg.1 n h hn
  · simp [readAttrs, hr]
  · simp [readNodes]
  · simpa using hn
  · simp

theorem node_item {env : Env} {k n : Text} {v v' : Val} {nd : Node}
    (hw : ∀ g, n ∉ g.items.map Prod.fst → writeItem env k v g = .ok (putItem g n nd))
    (hn : itemKey n = k) (hr : readNode env n nd = .ok [(k, v')]) (hs : Same v v') :
    ItemOK env k v := by
  refine ⟨[], [(n, nd)], [], [(k, v')], v', ?_, ?_, ?_, rfl, hs, ?_, ?_⟩
  · intro g hg
    have hfresh : n ∉ g.items.map Prod.fst := fun h => hg.2 n h hn
    rw [hw g hfresh, putItem, putKey_new _ _ _ hfresh]
    simp
  · simp [readAttrs]
  · simp [readNodes, hr]
  · simp
  · simpa using hn

/-- Reading an attribute with a plain name. -/
theorem readAttr_plain {k : Text} (hk : PlainKey k) (a : Attr) :
    readAttr k a = .ok [(k, attrVal a)] := by
  obtain ⟨h1, _, _, h2, h3, h4, _, _⟩ := plain_strip hk
  obtain ⟨h5, h6⟩ := plain_strip_empty hk
  simp [readAttr, h1, h2, h3, h4, h5, h6]

theorem allSome_map {β γ : Type} (f : β → Option γ) (g : γ → β) (hfg : ∀ y, f (g y) = some y) :
    ∀ l : List γ, allSome f (l.map g) = some l
  | [] => rfl
  | y :: ys => by simp [allSome, hfg, allSome_map f g hfg ys]

theorem allSome_eq_none {β γ : Type} (f : β → Option γ) : ∀ (l : List β) (x : β), x ∈ l →
    f x = none → allSome f l = none
  | [], _, h, _ => by simp at h
  | y :: ys, x, h, hx => by
    rcases List.mem_cons.1 h with rfl | h
    · simp [allSome, hx]
    · have := allSome_eq_none f ys x h hx
      simp only [allSome, this]
      split
      · rename_i heq; simp at heq
      · rfl

theorem maxRank_const (r : Nat) : ∀ ss : List Scalar, (∀ s ∈ ss, rank s = r) → ss ≠ [] →
    maxRank ss = r
  | [], _, h => absurd rfl h
  | [s], h, _ => by simp [maxRank, h s]
  | s :: t :: ss, h, _ => by
    rw [maxRank, h s (by simp), maxRank_const r (t :: ss)
      (fun x hx => h x (List.mem_cons_of_mem _ hx)) (by simp)]
    simp

theorem stripNul_id (s : Text) (h : NoNul s) : stripNul s = s := by
  unfold stripNul
  have : (s.reverse.dropWhile (· = '\x00')) = s.reverse := by
    cases hr : s.reverse with
    | nil => rfl
    | cons c cs =>
      have : c ∈ s := by
        have : c ∈ s.reverse := by rw [hr]; simp
        simpa using this
      have hc : c ≠ '\x00' := fun e => h (e ▸ this)
      simp [hc]
  rw [this, List.reverse_reverse]

theorem hasNul_false (s : Text) (h : NoNul s) : hasNul s = false := by
  unfold hasNul
  rw [List.any_eq_false]
  intro c hc
  simp only [decide_eq_true_eq]
  exact fun e => h (e ▸ hc)

/-- Lists of one kind become one dataset holding the same elements. -/
theorem uniform_cast (env : Env) (l : List Val) (hl : l ≠ []) (hu : Uniform l) :
    (∃ ts, castList env l = .texts ts ∧ l = ts.map .text ∧ ts.any hasNul = false) ∨
    (∃ ss, castList env l = .scalars ss ∧ l = ss.map .scalar) := by
  have scal : ∀ (ss : List Scalar) (r : Nat), l = ss.map .scalar → (∀ s ∈ ss, rank s = r) →
      (∀ s ∈ ss, okInt s = true) → (∀ s ∈ ss, promote env r s = s) →
      castList env l = .scalars ss := by
    intro ss r he hr hok hpr
    have hss : ss ≠ [] := by intro h; subst h; exact hl he
    have h1 : allSome asText l = none := by
      rcases ss with _ | ⟨s, ss⟩
      · exact absurd rfl hss
      · rw [he]; exact allSome_eq_none _ _ (.scalar s) (by simp) rfl
    have h2 : allSome asScalar l = some ss := by
      rw [he]; exact allSome_map asScalar Val.scalar (fun _ => rfl) ss
    unfold castList
    rw [h1, h2]
    have h3 : ss.all okInt = true := List.all_eq_true.2 hok
    simp only [h3, if_true, maxRank_const r ss hr hss]
    congr 1
    calc ss.map (promote env r) = ss.map id := List.map_congr_left fun s hs => hpr s hs
      _ = ss := by simp
  have lift : ∀ {γ : Type} (g : γ → Val) (Q : γ → Prop), (∀ v ∈ l, ∃ y, v = g y ∧ Q y) →
      ∃ ys : List γ, l = ys.map g ∧ ∀ y ∈ ys, Q y := by
    intro γ g Q h
    clear scal hu hl
    induction l with
    | nil => exact ⟨[], rfl, by simp⟩
    | cons v vs ih =>
      obtain ⟨y, hy, hq⟩ := h v List.mem_cons_self
      obtain ⟨ys, h1, h2⟩ := ih fun w hw => h w (List.mem_cons_of_mem _ hw)
      exact ⟨y :: ys, by simp [hy, h1], by
        intro z hz
        rcases List.mem_cons.1 hz with rfl | hz
        · exact hq
        · exact h2 z hz⟩
  rcases hu with h | h | h | h
  · left
    obtain ⟨ts, he, hq⟩ := lift (fun s => Val.text s) NoNul h
    refine ⟨ts, ?_, he, ?_⟩
    · unfold castList
      rw [he, allSome_map asText (fun s => Val.text s) (fun _ => rfl) ts]
      simp only
      congr 1
      calc ts.map stripNul = ts.map id := List.map_congr_left fun s hs => stripNul_id s (hq s hs)
        _ = ts := by simp
    · rw [List.any_eq_false]
      intro s hs
      simp [hasNul_false s (hq s hs)]
  · right
    obtain ⟨bs, he, _⟩ := lift (fun b => Val.scalar (.bool b)) (fun _ => True)
      (fun v hv => by obtain ⟨b, hb⟩ := h v hv; exact ⟨b, hb, trivial⟩)
    refine ⟨bs.map .bool, scal _ 0 (by simpa [Function.comp_def] using he) ?_ ?_ ?_,
      by simpa [Function.comp_def] using he⟩ <;>
    · intro s hs
      obtain ⟨b, _, rfl⟩ := List.mem_map.1 hs
      simp [rank, okInt, promote]
  · right
    obtain ⟨is, he, hq⟩ := lift (fun i => Val.scalar (.int i))
      (fun i => -2 ^ 63 ≤ i ∧ i < 2 ^ 63) h
    refine ⟨is.map .int, scal _ 1 (by simpa [Function.comp_def] using he) ?_ ?_ ?_,
      by simpa [Function.comp_def] using he⟩ <;>
    · intro s hs
      obtain ⟨i, hi, rfl⟩ := List.mem_map.1 hs
      have := hq i hi
      simp [rank, okInt, promote, inInt64]
      try omega
  · right
    obtain ⟨qs, he, _⟩ := lift (fun q => Val.scalar (.float q)) (fun _ => True)
      (fun v hv => by obtain ⟨b, hb⟩ := h v hv; exact ⟨b, hb, trivial⟩)
    refine ⟨qs.map .float, scal _ 2 (by simpa [Function.comp_def] using he) ?_ ?_ ?_,
      by simpa [Function.comp_def] using he⟩ <;>
    · intro s hs
      obtain ⟨b, _, rfl⟩ := List.mem_map.1 hs
      simp [rank, okInt, promote]

theorem composite_cast (env : Env) (l : List Val) (h : ∃ v ∈ l, Composite v) :
    castList env l = .object := by
  obtain ⟨v, hv, hc⟩ := h
  have h1 : allSome asText l = none := allSome_eq_none _ _ v hv (by cases v <;> simp_all [Composite, asText])
  have h2 : allSome asScalar l = none :=
    allSome_eq_none _ _ v hv (by cases v <;> simp_all [Composite, asScalar])
  have h3 : l.all isAtom = false := by
    rw [List.all_eq_false]
    exact ⟨v, hv, by cases v <;> simp_all [Composite, isAtom]⟩
  unfold castList
  rw [h1, h2]
  simp [h3]

theorem same_text (s : Text) : Same (.text s) (.text s) := by simp [Same]
theorem same_scalar (s : Scalar) : Same (.scalar s) (.scalar s) := by simp [Same]

/-- The two kinds of sequence: constructor, prefix, prefix for empty ones. -/
inductive Kind (mk : List Val → Val) (p : Text) (pe : Text) : Prop where
  | list (h : mk = .list ∧ p = pList ∧ pe = pListEmpty)
  | tuple (h : mk = .tuple ∧ p = pTuple ∧ pe = pTupleEmpty)

theorem seq_item (env : Env) (horder : ∀ l, (env.order l).Perm l) (mk : List Val → Val)
    (p pe : Text) (hkind : Kind mk p pe) (k : Text) (hk : PlainKey k) (l : List Val)
    (hst : Uniform l ∨ ((∃ v ∈ l, Composite v) ∧ l.length ≤ 10 ∧
      ∀ v ∈ l, ∀ k, PlainKey k → ItemOK env k v)) : ItemOK env k (mk l) := by
  have hwrite : l ≠ [] → ∀ g, writeItem env k (mk l) g =
      writeStructure env k p l (fun sub => writeElems env 0 l sub) g := by
    intro hl g
    have he : l.isEmpty = false := by cases l with
      | nil => exact absurd rfl hl
      | cons a b => rfl
    rcases hkind with ⟨rfl, rfl, rfl⟩ | ⟨rfl, rfl, rfl⟩ <;> simp [writeItem, he]
  have hsame : ∀ l', SameList l l' → Same (mk l) (mk l') := by
    intro l' h
    rcases hkind with ⟨rfl, rfl, rfl⟩ | ⟨rfl, rfl, rfl⟩ <;> (simp only [Same]; exact ⟨l', rfl, h⟩)
  have hkey : itemKey (p ++ k) = k := by
    rcases hkind with ⟨_, rfl, _⟩ | ⟨_, rfl, _⟩
    · simp [itemKey, stripPrefix_append, dropCount_plain hk.2]
    · simp [itemKey, stripPrefix_append, strip_list_tuple, dropCount_plain hk.2]
  have hdset : ∀ d vs, dsetVals d = some vs →
      readNode env (p ++ k) (.dset d) = .ok [(k, mk vs)] := by
    intro d vs hd
    rcases hkind with ⟨rfl, rfl, _⟩ | ⟨rfl, rfl, _⟩
    · have h1 : stripPrefix pRagged (pList ++ k) = none := by rfl
      have h2 : stripPrefix pSig (pList ++ k) = none := by rfl
      simp [readNode, readDset, h1, h2, stripPrefix_append, hd]
    · have h1 : stripPrefix pRagged (pTuple ++ k) = none := by rfl
      have h2 : stripPrefix pSig (pTuple ++ k) = none := by rfl
      simp [readNode, readDset, h1, h2, stripPrefix_append, strip_list_tuple, hd]
  by_cases hl : l = []
  · -- empty
    subst hl
    rcases hkind with ⟨rfl, rfl, rfl⟩ | ⟨rfl, rfl, rfl⟩
    · refine attr_item (v' := .list []) (n := pListEmpty ++ k) (a := .text sNone) (fun g => by simp [writeItem])
        (attrKey_listEmpty k) ?_ (hsame [] (by simp [SameList]))
      have h1 : stripPrefix pSig (pListEmpty ++ k) = none := by rfl
      simp [readAttr, h1, stripPrefix_append]
    · refine attr_item (v' := .tuple []) (n := pTupleEmpty ++ k) (a := .text sNone) (fun g => by simp [writeItem])
        (attrKey_tupleEmpty k) ?_ (hsame [] (by simp [SameList]))
      have h1 : stripPrefix pSig (pTupleEmpty ++ k) = none := by rfl
      have h2 : stripPrefix pListEmpty (pTupleEmpty ++ k) = none := by rfl
      simp [readAttr, h1, h2, stripPrefix_append]
  rcases hst with hu | ⟨hc, hlen, hel⟩
  · rcases uniform_cast env l hl hu with ⟨ts, h1, h2, h3⟩ | ⟨ss, h1, h2⟩
    · refine node_item (v' := mk l) (n := p ++ k) (nd := .dset (.texts ts)) (fun g _ => ?_) hkey
        (by rw [h2]; exact hdset _ _ rfl) (hsame l (sameList_atoms l ?_))
      · rw [hwrite hl]; simp [writeStructure, h1, h3]
      · intro v hv; rw [h2] at hv; obtain ⟨s, _, rfl⟩ := List.mem_map.1 hv; exact same_text s
    · refine node_item (v' := mk l) (n := p ++ k) (nd := .dset (.scalars ss)) (fun g _ => ?_) hkey
        (by rw [h2]; exact hdset _ _ rfl) (hsame l (sameList_atoms l ?_))
      · rw [hwrite hl]; simp [writeStructure, h1]
      · intro v hv; rw [h2] at hv; obtain ⟨s, _, rfl⟩ := List.mem_map.1 hv; exact same_scalar s
  · -- a group of elements
    have hd : DictOK env (elemItems 0 l) := by
      refine dictOK_of_items env _ (elemItems_nodup l 0) fun kv hkv => ?_
      obtain ⟨j, _, _, h3, h4⟩ := elemItems_mem l 0 kv hkv
      rw [h3]
      exact hel _ h4 _ (plain_number j)
    obtain ⟨A, I, x, y, hw, ha, hn, hs⟩ := hd.read horder (elemItems_nodup l 0)
    have hname : p ++ decChars l.length ++ ['_'] ++ k = p ++ (decChars l.length ++ '_' :: k) := by
      simp
    refine node_item (v' := mk ((sortItems (collect env x y)).map Prod.snd))
      (n := p ++ decChars l.length ++ ['_'] ++ k) (nd := .group A I) (fun g hfresh => ?_) ?_ ?_
      (hsame _ (sorted_elems l hlen hs))
    · rw [hwrite hl]
      simp only [writeStructure, composite_cast env l hc, requireGroup]
      rw [lookup_none _ _ hfresh]
      simp only [writeElems_eq, hw]
    · rw [hname]
      rcases hkind with ⟨_, rfl, _⟩ | ⟨_, rfl, _⟩
      · simp [itemKey, stripPrefix_append, dropCount_numbered]
      · simp [itemKey, stripPrefix_append, strip_list_tuple, dropCount_numbered]
    · rw [hname]
      rcases hkind with ⟨rfl, rfl, _⟩ | ⟨rfl, rfl, _⟩
      · have h1 : stripPrefix pRagged (pList ++ (decChars l.length ++ '_' :: k)) = none := by rfl
        have h2 : stripPrefix pSig (pList ++ (decChars l.length ++ '_' :: k)) = none := by rfl
        have h3 : stripPrefix pAxes (pList ++ (decChars l.length ++ '_' :: k)) = none := by rfl
        simp [readNode, h1, h2, h3, ha, hn, groupEntry, stripPrefix_append,
          afterUnderscore_numbered]
      · have h1 : stripPrefix pRagged (pTuple ++ (decChars l.length ++ '_' :: k)) = none := by rfl
        have h2 : stripPrefix pSig (pTuple ++ (decChars l.length ++ '_' :: k)) = none := by rfl
        have h3 : stripPrefix pAxes (pTuple ++ (decChars l.length ++ '_' :: k)) = none := by rfl
        simp [readNode, h1, h2, h3, ha, hn, groupEntry, stripPrefix_append, strip_list_tuple,
          afterUnderscore_numbered]

theorem dict_item (env : Env) (horder : ∀ l, (env.order l).Perm l) (k : Text) (hk : PlainKey k)
    (d : List (Text × Val)) (hnd : (d.map Prod.fst).Nodup)
    (hel : ∀ kv ∈ d, ItemOK env kv.1 kv.2) : ItemOK env k (.dict d) := by
  obtain ⟨A, I, x, y, hw, ha, hn, hs⟩ := (dictOK_of_items env d hnd hel).read horder hnd
  obtain ⟨h1, h2, h3, _, _, _, h4, h5⟩ := plain_strip hk
  refine node_item (v' := .dict (collect env x y)) (n := k) (nd := .group A I)
    (fun g hfresh => ?_) (itemKey_plain hk) ?_ ?_
  · simp only [writeItem, requireGroup]
    rw [lookup_none _ _ hfresh]
    simp only [hw]
  · simp [readNode, h4, h1, ha, hn, groupEntry, h5, h2, h3]
  · simp only [Same]
    exact ⟨_, rfl, hs⟩

mutual
theorem storable_item (env : Env) (horder : ∀ l, (env.order l).Perm l) : ∀ v : Val, Storable v →
    ∀ k, PlainKey k → ItemOK env k v
  | .none, _, k, hk => attr_item (v' := .none) (n := k) (a := .text sNone)
      (fun g => by simp [writeItem]) (attrKey_plain hk)
      (by rw [readAttr_plain hk]; simp [attrVal]) (by simp [Same])
  | .text s, hs, k, hk => by
    simp only [Storable] at hs
    refine attr_item (v' := .text s) (n := k) (a := .text s)
      (fun g => by simp [writeItem, hasNul_false s hs.2]) (attrKey_plain hk) ?_ (by simp [Same])
    have : s ≠ sNone := hs.1
    rw [readAttr_plain hk]; simp [attrVal, this]
  | .scalar s, hs, k, hk => by
    refine attr_item (v' := .scalar s) (n := k) (a := .scalar s)
      (fun g => ?_) (attrKey_plain hk) (by rw [readAttr_plain hk]; simp [attrVal]) (by simp [Same])
    have : attrFits s = true := by
      cases s with
      | int i => simp only [Storable] at hs; simp [attrFits]; omega
      | bool b => rfl
      | float q => rfl
    simp [writeItem, this]
  | .bytes b, hs, k, hk => by
    simp only [Storable] at hs
    refine attr_item (v' := .bytes b) (n := pBs ++ k) (a := .void b)
      (fun g => by simp [writeItem, hs]) (attrKey_bs k) ?_ (by simp [Same])
    have h1 : stripPrefix pSig (pBs ++ k) = none := by rfl
    have h2 : stripPrefix pListEmpty (pBs ++ k) = none := by rfl
    have h3 : stripPrefix pTupleEmpty (pBs ++ k) = none := by rfl
    simp [readAttr, h1, h2, h3, stripPrefix_append]
  | .arr t, _, k, hk => by
    obtain ⟨h1, h2, h3, _, _, _, h4, _⟩ := plain_strip hk
    exact node_item (v' := .arr t) (n := k) (nd := .dset (.arr t))
      (fun g _ => by simp [writeItem]) (itemKey_plain hk)
      (by simp [readNode, readDset, h1, h2, h3, h4]) (by simp [Same])
  | .list l, hs, k, hk => by
    simp only [Storable] at hs
    exact seq_item env horder .list pList pListEmpty (.list ⟨rfl, rfl, rfl⟩) k hk l
      (hs.imp id fun h => ⟨h.1, h.2.1, storable_list env horder l h.2.2⟩)
  | .tuple l, hs, k, hk => by
    simp only [Storable] at hs
    exact seq_item env horder .tuple pTuple pTupleEmpty (.tuple ⟨rfl, rfl, rfl⟩) k hk l
      (hs.imp id fun h => ⟨h.1, h.2.1, storable_list env horder l h.2.2⟩)
  | .dict d, hs, k, hk => by
    simp only [Storable] at hs
    exact dict_item env horder k hk d hs.1 (storable_dict env horder d hs.2)

theorem storable_list (env : Env) (horder : ∀ l, (env.order l).Perm l) : ∀ l : List Val,
    StorableList l → ∀ v ∈ l, ∀ k, PlainKey k → ItemOK env k v
  | [], _, v, hv, _, _ => by simp at hv
  | w :: ws, hs, v, hv, k, hk => by
    simp only [StorableList] at hs
    have h1 := storable_item env horder w hs.1
    have h2 := storable_list env horder ws hs.2
    rcases List.mem_cons.1 hv with e | hv
    · rw [e]; exact h1 k hk
    · exact h2 v hv k hk

theorem storable_dict (env : Env) (horder : ∀ l, (env.order l).Perm l) :
    ∀ d : List (Text × Val), StorableDict d → ∀ kv ∈ d, ItemOK env kv.1 kv.2
  | [], _, kv, hkv => by simp at hkv
  | (k, v) :: rest, hs, kv, hkv => by
    simp only [StorableDict] at hs
    have h1 := storable_item env horder v hs.2.1 k hs.1
    have h2 := storable_dict env horder rest hs.2.2
    rcases List.mem_cons.1 hkv with e | hkv
    · rw [e]; exact h1
    · exact h2 kv hkv
end

/-- **C18 (partial)**: writing a nested dictionary of storable values into an empty group and
reading the group back succeeds and returns the same dictionary, whatever the order in which the
file lists its items. Missing (see the theorems below): lists of more than ten elements that are
not all of one kind, the text `_None_`, lists mixing texts and numbers (or types of numbers),
integers beyond 64 bits, texts with NUL characters, byte strings without NUL, and keys with a
reserved prefix. -/
theorem C18_dict_roundtrip_partial (env : Env) (horder : ∀ l, (env.order l).Perm l)
    (d : List (Text × Val)) (hd : Storable (.dict d)) :
    ∃ g d', dict2group env d ⟨[], []⟩ = .ok g ∧ group2dict env g = .ok d' ∧ SameDict d d' := by
  simp only [Storable] at hd
  obtain ⟨A, I, x, y, hw, ha, hn, hs⟩ :=
    (dictOK_of_items env d hd.1 (storable_dict env horder d hd.2)).read horder hd.1
  exact ⟨⟨A, I⟩, _, hw, by simp [group2dict, ha, hn], hs⟩

/-- What "the same dictionary" gives for each key: the same value. -/
theorem C18_same_lookup : ∀ (d d' : List (Text × Val)), SameDict d d' → ∀ k v, (k, v) ∈ d →
    ∃ v', (k, v') ∈ d' ∧ Same v v'
  | [], _, _, _, _, h => by simp at h
  | (k0, v0) :: rest, d', hs, k, v, h => by
    simp only [SameDict] at hs
    obtain ⟨v', rest', hp, h1, h2⟩ := hs
    rcases List.mem_cons.1 h with e | h
    · cases e; exact ⟨v', hp.mem_iff.2 (by simp), h1⟩
    · obtain ⟨w, hw, hsw⟩ := C18_same_lookup rest rest' h2 k v h
      exact ⟨w, hp.mem_iff.2 (List.mem_cons_of_mem _ hw), hsw⟩

/-- A simple environment for the examples: insertion order, texts for numbers, ASCII bytes. -/
def env0 : Env where
  fmt := fun s => match s with
    | .bool b => if b then "True".toList else "False".toList
    | .int i => decChars i.toNat
    | .float q => decChars q
  toFloat := fun i => i.toNat
  decode := fun b => some (b.map fun u => Char.ofNat u.toNat)
  order := id

/-- A nested dictionary that meets the hypotheses. -/
def sample : List (Text × Val) :=
  [("a".toList, .list [.none, .tuple [.scalar (.int 1), .scalar (.int 2)], .list []]),
   ("_HyperSpy".toList, .dict [("b".toList, .text "x".toList), ("c".toList, .none)]),
   ("t".toList, .tuple [.text "u".toList, .text "v".toList])]

example : Storable (.dict sample) := by
  have pk : ∀ k : Text, (∀ p ∈ reserved, ¬ p <+: k) → (∀ c ∈ k.take 1, ¬ ('0' ≤ c ∧ c ≤ '9')) →
      PlainKey k := by
    intro k h1 h2
    refine ⟨h1, ?_⟩
    rintro ⟨ds, rest, hne, hd, rfl⟩
    rcases ds with _ | ⟨c, cs⟩
    · exact hne rfl
    · exact h2 c (by simp) (hd c (by simp))
  have hu : ∀ l : List Val, (∀ v ∈ l, ∃ s, v = .text s ∧ NoNul s) → Uniform l := fun l h => .inl h
  simp only [Storable, sample, StorableDict, StorableList]
  refine ⟨by decide, pk _ (by decide) (by decide), .inr ⟨⟨.none, by simp, trivial⟩, by decide, trivial,
    .inl (.inr (.inr (.inl ?_))), .inl (.inl (by simp)), trivial⟩, pk _ (by decide) (by decide),
    ⟨by decide, pk _ (by decide) (by decide), ⟨by decide, by unfold NoNul; decide⟩, pk _ (by decide) (by decide),
      trivial, trivial⟩, pk _ (by decide) (by decide), .inl (.inl ?_), trivial⟩
  · intro v hv
    simp only [List.mem_cons, List.not_mem_nil, or_false] at hv
    rcases hv with rfl | rfl
    · exact ⟨1, rfl, by decide, by decide⟩
    · exact ⟨2, rfl, by decide, by decide⟩
  · intro v hv
    simp only [List.mem_cons, List.not_mem_nil, or_false] at hv
    rcases hv with rfl | rfl
    · exact ⟨_, rfl, by unfold NoNul; decide⟩
    · exact ⟨_, rfl, by unfold NoNul; decide⟩

/-- Write into an empty group and read back. -/
def saveLoad (env : Env) (d : List (Text × Val)) : Py (List (Text × Val)) :=
  match dict2group env d ⟨[], []⟩ with
  | .ok g => group2dict env g
  | .error e => .error e

/-- C18 is false for a list of eleven elements that are not all of one kind: the elements are
read in the order of their keys as texts, `"10"` before `"2"`. -/
theorem C18_fails_long_lists :
    let l : List Val := (List.range 11).map fun i => .list [.scalar (.int i)]
    saveLoad env0 [("a".toList, .list l)] =
      .ok [("a".toList, .list ([0, 1, 10, 2, 3, 4, 5, 6, 7, 8, 9].map fun i : Int =>
        .list [.scalar (.int i)]))] := rfl

/-- C18 is false for the text `_None_`: it comes back as `None`. -/
theorem C18_fails_text_none :
    saveLoad env0 [("a".toList, .text "_None_".toList)] = .ok [("a".toList, .none)] := rfl

/-- C18 is false for lists mixing texts and numbers, or kinds of numbers: the elements come back
as texts, or as the widest kind. -/
theorem C18_fails_mixed_lists :
    saveLoad env0 [("a".toList, .list [.scalar (.int 1), .text "x".toList])] =
      .ok [("a".toList, .list [.text "1".toList, .text "x".toList])] ∧
    saveLoad env0 [("a".toList, .list [.scalar (.bool true), .scalar (.int 2)])] =
      .ok [("a".toList, .list [.scalar (.int 1), .scalar (.int 2)])] := ⟨rfl, rfl⟩

/-- C18 is false for integers beyond 64 bits: the item is dropped (with a log message). -/
theorem C18_fails_large_integers :
    saveLoad env0 [("a".toList, .scalar (.int (2 ^ 64))), ("b".toList, .none)] =
      .ok [("b".toList, .none)] := rfl

/-- C18 is false for texts with a NUL character: writing fails (hspy). -/
theorem C18_fails_nul_character :
    saveLoad env0 [("a".toList, .text ['x', '\x00'])] = .error .valueError := rfl

/-- C18 is false for byte strings without a NUL byte: they come back as text. -/
theorem C18_fails_bytes :
    saveLoad env0 [("a".toList, .bytes [97, 98])] = .ok [("a".toList, .text "ab".toList)] := rfl

/-- C18 is false for keys with a reserved prefix, and two keys may collide: a list under `2_k`
and a list of two different things under `k` (`TypeError`). -/
theorem C18_fails_reserved_keys :
    saveLoad env0 [("_list_empty_a".toList, .text "x".toList)] = .ok [("a".toList, .list [])] ∧
    saveLoad env0 [("_sig_a".toList, .text "x".toList)] = .ok [] ∧
    saveLoad env0 [("2_k".toList, .list [.scalar (.int 1)]),
      ("k".toList, .list [.none, .scalar (.int 1)])] = .error .typeError := ⟨rfl, rfl, rfl⟩

/-- None of these results is the same dictionary. -/
theorem C18_not_same (k : Text) :
    ¬ SameDict [(k, .text "_None_".toList)] [(k, .none)] ∧
    ¬ SameDict [(k, .list [.scalar (.int 1), .text "x".toList])]
      [(k, .list [.text "1".toList, .text "x".toList])] ∧
    ¬ SameDict [(k, .scalar (.int (2 ^ 64)))] [] ∧
    ¬ SameDict [(k, .bytes [97, 98])] [(k, .text "ab".toList)] := by
  refine ⟨?_, ?_, ?_, ?_⟩
  · simp [SameDict, Same]
  · simp [SameDict, Same, SameList]
  · simp [SameDict]
  · simp [SameDict, Same]

end Verif.Props.HierDict
