import Verif.Spec.HierDict
import Mathlib.Data.List.Nodup
import Mathlib.Data.List.Forall2
/-! Helper lemmas for C18. -/
namespace Verif.HierDict
open Verif Verif.HierDictSpec

/-! ### Mappings -/

theorem lookup_none {β : Type} (k : Text) : ∀ l : List (Text × β), k ∉ l.map Prod.fst →
    lookup k l = none
  | [], _ => rfl
  | (k', v) :: rest, h => by
    simp only [List.map_cons, List.mem_cons, not_or] at h
    simp [lookup, Ne.symm h.1, lookup_none k rest h.2]

theorem putKey_new {β : Type} (k : Text) (v : β) : ∀ l : List (Text × β),
    k ∉ l.map Prod.fst → putKey k v l = l ++ [(k, v)]
  | [], _ => rfl
  | (k', v') :: rest, h => by
    simp only [List.map_cons, List.mem_cons, not_or] at h
    simp [putKey, Ne.symm h.1, putKey_new k v rest h.2]

theorem assign_new : ∀ (l d : List (Text × Val)), ((d ++ l).map Prod.fst).Nodup →
    assign l d = d ++ l
  | [], d, _ => by simp [assign]
  | (k, v) :: rest, d, h => by
    have hk : k ∉ d.map Prod.fst := by
      rw [List.map_append, List.nodup_append] at h
      intro hk
      exact h.2.2 k hk k (by simp) rfl
    unfold assign
    rw [putKey_new _ _ _ hk, assign_new rest _ (by simpa using h)]
    simp

theorem collect_perm (env : Env) (horder : ∀ l, (env.order l).Perm l) (a b : List (Text × Val))
    (h : ((a ++ b).map Prod.fst).Nodup) : (collect env a b).Perm (a ++ b) := by
  have hp : (env.order a ++ env.order b).Perm (a ++ b) := (horder a).append (horder b)
  have hnd : ((env.order a ++ env.order b).map Prod.fst).Nodup := (hp.map _).nodup_iff.2 h
  unfold collect
  rw [assign_new (env.order a) [] (by
    rw [List.map_append, List.nodup_append] at hnd; simpa using hnd.1)]
  rw [List.nil_append, assign_new _ _ hnd]
  exact hp

/-! ### Key prefixes -/

theorem stripPrefix_append : ∀ p k : Text, stripPrefix p (p ++ k) = some k
  | [], _ => rfl
  | c :: p, k => by simp [stripPrefix, stripPrefix_append p k]

theorem stripPrefix_none : ∀ p k : Text, ¬ p <+: k → stripPrefix p k = none
  | [], k, h => absurd (List.nil_prefix) h
  | c :: p, [], _ => rfl
  | c :: p, d :: k, h => by
    unfold stripPrefix
    by_cases hc : c = d
    · subst hc
      rw [if_pos rfl]
      exact stripPrefix_none p k fun h' => h (by simpa using h')
    · rw [if_neg hc]

theorem reserved_eq : reserved = [pSig, pList, pTuple, pBs, pDate, pTime, pRagged, pAxes] := rfl

theorem plain_strip {k : Text} (h : PlainKey k) :
    stripPrefix pSig k = none ∧ stripPrefix pList k = none ∧ stripPrefix pTuple k = none ∧
    stripPrefix pBs k = none ∧ stripPrefix pDate k = none ∧ stripPrefix pTime k = none ∧
    stripPrefix pRagged k = none ∧ stripPrefix pAxes k = none := by
  have := h.1
  rw [reserved_eq] at this
  refine ⟨?_, ?_, ?_, ?_, ?_, ?_, ?_, ?_⟩ <;>
  · apply stripPrefix_none
    apply this
    simp only [List.mem_cons, true_or, or_true]

theorem not_prefix_mono {p q k : Text} (hpq : p <+: q) (h : ¬ p <+: k) : ¬ q <+: k :=
  fun hq => h (hpq.trans hq)

theorem plain_strip_empty {k : Text} (h : PlainKey k) :
    stripPrefix pListEmpty k = none ∧ stripPrefix pTupleEmpty k = none := by
  have := h.1
  rw [reserved_eq] at this
  refine ⟨stripPrefix_none _ _ (not_prefix_mono (p := pList) ⟨"empty_".toList, rfl⟩ ?_),
    stripPrefix_none _ _ (not_prefix_mono (p := pTuple) ⟨"empty_".toList, rfl⟩ ?_)⟩ <;>
  · apply this; simp only [List.mem_cons, true_or, or_true]

/-- The dictionary key of an attribute name. -/
def attrKey (n : Text) : Text :=
  match stripPrefix pBs n with
  | some k => k
  | none =>
    match stripPrefix pListEmpty n with
    | some k => k
    | none =>
      match stripPrefix pTupleEmpty n with
      | some k => k
      | none => n

/-- Drop a number and an underscore at the beginning. -/
def dropCount (k : Text) : Text :=
  match k with
  | [] => []
  | c :: rest =>
    if isDigit c then
      match rest.dropWhile isDigit with
      | '_' :: r => r
      | _ => k
    else k

/-- The dictionary key of an item name. -/
def itemKey (n : Text) : Text :=
  match stripPrefix pList n with
  | some k => dropCount k
  | none =>
    match stripPrefix pTuple n with
    | some k => dropCount k
    | none => n

theorem isDigit_iff (c : Char) : isDigit c = true ↔ '0' ≤ c ∧ c ≤ '9' := by
  simp only [isDigit, decide_eq_true_eq, Char.le_def, Char.toNat, UInt32.le_iff_toNat_le]
  exact Iff.rfl

theorem mem_takeWhile_imp {p : Char → Bool} : ∀ (l : List Char) {c : Char},
    c ∈ l.takeWhile p → p c = true
  | [], _, h => by simp at h
  | a :: l, c, h => by
    rw [List.takeWhile_cons] at h
    split at h
    · rename_i ha
      rcases List.mem_cons.1 h with rfl | h
      · exact ha
      · exact mem_takeWhile_imp l h
    · simp at h

theorem dropCount_plain {k : Text} (h : ¬ Numbered k) : dropCount k = k := by
  cases k with
  | nil => rfl
  | cons c rest =>
    unfold dropCount
    by_cases hc : isDigit c = true
    · simp only [hc, if_true]
      split
      · rename_i r hr
        exfalso
        apply h
        refine ⟨c :: rest.takeWhile isDigit, r, by simp, ?_, ?_⟩
        · intro d hd
          rcases List.mem_cons.1 hd with rfl | hd
          · exact (isDigit_iff _).1 hc
          · exact (isDigit_iff _).1 (mem_takeWhile_imp _ hd)
        · have := List.takeWhile_append_dropWhile (p := isDigit) (l := rest)
          rw [hr] at this
          simp [this]
      · rfl
    · simp [hc]

theorem dropWhile_digits (ds k : Text) (h : ∀ c ∈ ds, isDigit c = true) :
    (ds ++ '_' :: k).dropWhile isDigit = '_' :: k := by
  induction ds with
  | nil => rfl
  | cons d ds ih =>
    simp [h d List.mem_cons_self, ih fun c hc => h c (List.mem_cons_of_mem _ hc)]

theorem dropCount_numbered (n : Nat) (k : Text) : dropCount (decChars n ++ '_' :: k) = k := by
  have hd := decChars_digits n
  rcases hc : decChars n with _ | ⟨c, cs⟩
  · exact absurd hc (decChars_ne_nil n)
  rw [hc] at hd
  simp only [List.cons_append, dropCount, hd c List.mem_cons_self, if_true]
  rw [dropWhile_digits cs k fun c' hc' => hd c' (List.mem_cons_of_mem _ hc')]
  rfl

theorem afterUnderscore_numbered (n : Nat) (k : Text) :
    afterUnderscore (decChars n ++ '_' :: k) = k := by
  have hd := decChars_digits n
  have : (decChars n ++ '_' :: k).dropWhile (· ≠ '_') = '_' :: k := by
    generalize decChars n = ds at hd
    induction ds with
    | nil => rfl
    | cons d ds ih =>
      have h1 : d ≠ '_' := by
        intro e
        have := hd d List.mem_cons_self
        rw [e] at this
        exact absurd this (by decide)
      simp only [List.cons_append, List.dropWhile_cons, ne_eq, h1, not_false_eq_true, decide_true,
        if_true]
      exact ih fun c hc => hd c (List.mem_cons_of_mem _ hc)
  unfold afterUnderscore
  rw [this]

theorem attrKey_plain {k : Text} (h : PlainKey k) : attrKey k = k := by
  simp [attrKey, (plain_strip h).2.2.2.1, (plain_strip_empty h).1, (plain_strip_empty h).2]

theorem attrKey_bs (k : Text) : attrKey (pBs ++ k) = k := by
  simp [attrKey, stripPrefix_append]

theorem attrKey_listEmpty (k : Text) : attrKey (pListEmpty ++ k) = k := by
  have : stripPrefix pBs (pListEmpty ++ k) = none := by
    rfl
  simp [attrKey, this, stripPrefix_append]

theorem attrKey_tupleEmpty (k : Text) : attrKey (pTupleEmpty ++ k) = k := by
  have h1 : stripPrefix pBs (pTupleEmpty ++ k) = none := by rfl
  have h2 : stripPrefix pListEmpty (pTupleEmpty ++ k) = none := by
    rfl
  simp [attrKey, h1, h2, stripPrefix_append]

theorem itemKey_plain {k : Text} (h : PlainKey k) : itemKey k = k := by
  simp [itemKey, (plain_strip h).2.1, (plain_strip h).2.2.1]

theorem strip_list_tuple (k : Text) : stripPrefix pList (pTuple ++ k) = none := by
  rfl

/-- Numbers as texts are plain keys. -/
theorem plain_number (n : Nat) : PlainKey (decChars n) := by
  have hd := decChars_digits n
  have hno : '_' ∉ decChars n := fun h => absurd (hd _ h) (by decide)
  refine ⟨?_, ?_⟩
  · intro p hp hpre
    apply hno
    apply hpre.subset
    simp only [reserved, List.mem_cons, List.not_mem_nil, or_false] at hp
    rcases hp with rfl | rfl | rfl | rfl | rfl | rfl | rfl | rfl <;> decide +kernel
  · rintro ⟨ds, rest, _, _, he⟩
    apply hno
    rw [he]
    simp

/-! ### Sameness -/

theorem sameDict_perm : ∀ {d e e' : List (Text × Val)}, SameDict d e → e'.Perm e → SameDict d e'
  | [], e, e', h, hp => by
    simp only [SameDict] at h ⊢
    subst h
    exact hp.eq_nil
  | (k, v) :: rest, e, e', h, hp => by
    simp only [SameDict] at h ⊢
    obtain ⟨v', rest', h1, h2, h3⟩ := h
    exact ⟨v', rest', hp.trans h1, h2, h3⟩

/-- A dictionary that is the same can be listed in the same order. -/
theorem sameDict_forall2 : ∀ {d e : List (Text × Val)}, SameDict d e →
    ∃ e', e.Perm e' ∧ List.Forall₂ (fun a b => a.1 = b.1 ∧ Same a.2 b.2) d e'
  | [], e, h => by
    simp only [SameDict] at h
    subst h
    exact ⟨[], List.Perm.refl _, .nil⟩
  | (k, v) :: rest, e, h => by
    simp only [SameDict] at h
    obtain ⟨v', rest', h1, h2, h3⟩ := h
    obtain ⟨e', h4, h5⟩ := sameDict_forall2 h3
    exact ⟨(k, v') :: e', h1.trans (h4.cons _), .cons ⟨rfl, h2⟩ h5⟩

theorem forall2_keys {d e : List (Text × Val)}
    (h : List.Forall₂ (fun a b => a.1 = b.1 ∧ Same a.2 b.2) d e) :
    e.map Prod.fst = d.map Prod.fst := by
  induction h with
  | nil => rfl
  | cons h _ ih => simp [ih, h.1]

theorem sameDict_keys {d e : List (Text × Val)} (h : SameDict d e) :
    (e.map Prod.fst).Perm (d.map Prod.fst) := by
  obtain ⟨e', h1, h2⟩ := sameDict_forall2 h
  rw [← forall2_keys h2]
  exact h1.map _

theorem sameList_of_forall2 : ∀ {l l' : List Val}, List.Forall₂ Same l l' → SameList l l'
  | _, _, .nil => by simp [SameList]
  | _, _, .cons h t => by
    simp only [SameList]
    exact ⟨_, _, rfl, h, sameList_of_forall2 t⟩

theorem sameList_atoms : ∀ (l : List Val), (∀ v ∈ l, Same v v) → SameList l l
  | [], _ => by simp [SameList]
  | v :: vs, h => by
    simp only [SameList]
    exact ⟨v, vs, rfl, h v List.mem_cons_self,
      sameList_atoms vs fun w hw => h w (List.mem_cons_of_mem _ hw)⟩

/-! ### Sorting the element keys -/

theorem leText_total : ∀ a b : Text, leText a b = true ∨ leText b a = true
  | [], _ => .inl rfl
  | _ :: _, [] => .inr rfl
  | a :: as, b :: bs => by
    unfold leText
    by_cases h1 : a.toNat < b.toNat
    · simp [h1]
    · by_cases h2 : b.toNat < a.toNat
      · simp [h2]
      · have : a = b := Char.toNat_inj.1 (by omega)
        subst this
        simpa using leText_total as bs

theorem leText_trans : ∀ a b c : Text, leText a b = true → leText b c = true → leText a c = true
  | [], _, _, _, _ => rfl
  | _ :: _, [], _, h, _ => by simp [leText] at h
  | _ :: _, _ :: _, [], _, h => by simp [leText] at h
  | a :: as, b :: bs, c :: cs, h1, h2 => by
    unfold leText at h1 h2 ⊢
    by_cases hab : a.toNat < b.toNat
    · by_cases hbc : b.toNat < c.toNat
      · have : a.toNat < c.toNat := by omega
        simp [this]
      · simp only [hbc, if_false] at h2
        by_cases e : b = c
        · subst e; simp [hab]
        · simp [e] at h2
    · simp only [hab, if_false] at h1
      by_cases e : a = b
      · subst e
        simp only [if_true] at h1
        by_cases hbc : a.toNat < c.toNat
        · simp [hbc]
        · simp only [hbc, if_false] at h2 ⊢
          by_cases e' : a = c
          · subst e'
            simp only [if_true] at h2 ⊢
            exact leText_trans as bs cs h1 h2
          · simp [e'] at h2
      · simp [e] at h1

theorem leText_antisymm : ∀ a b : Text, leText a b = true → leText b a = true → a = b
  | [], [], _, _ => rfl
  | [], _ :: _, _, h => by simp [leText] at h
  | _ :: _, [], h, _ => by simp [leText] at h
  | a :: as, b :: bs, h1, h2 => by
    unfold leText at h1 h2
    by_cases hab : a.toNat < b.toNat
    · have h3 : ¬ b.toNat < a.toNat := by omega
      simp only [h3, if_false] at h2
      by_cases e : b = a
      · subst e; omega
      · simp [e] at h2
    · simp only [hab, if_false] at h1
      by_cases e : a = b
      · subst e
        simp only [Nat.lt_irrefl, if_false, if_true] at h1 h2
        rw [leText_antisymm as bs h1 h2]
      · simp [e] at h1

theorem insertItem_perm (x : Text × Val) : ∀ l, (insertItem x l).Perm (x :: l)
  | [] => List.Perm.refl _
  | y :: ys => by
    unfold insertItem
    split
    · exact List.Perm.refl _
    · exact ((insertItem_perm x ys).cons y).trans (List.Perm.swap x y ys)

theorem sortItems_perm : ∀ l, (sortItems l).Perm l
  | [] => List.Perm.refl _
  | x :: xs => (insertItem_perm x _).trans ((sortItems_perm xs).cons x)

theorem insertItem_sorted (x : Text × Val) : ∀ l, l.Pairwise (fun a b => leText a.1 b.1 = true) →
    (insertItem x l).Pairwise (fun a b => leText a.1 b.1 = true)
  | [], _ => by simp [insertItem]
  | y :: ys, h => by
    unfold insertItem
    by_cases hxy : leText x.1 y.1 = true
    · rw [if_pos hxy]
      refine List.pairwise_cons.2 ⟨fun z hz => ?_, h⟩
      rcases List.mem_cons.1 hz with rfl | hz
      · exact hxy
      · exact leText_trans _ _ _ hxy (List.rel_of_pairwise_cons h hz)
    · rw [if_neg hxy]
      have hyx : leText y.1 x.1 = true := (leText_total x.1 y.1).resolve_left hxy
      refine List.pairwise_cons.2 ⟨fun z hz => ?_, insertItem_sorted x ys (List.pairwise_cons.1 h).2⟩
      rcases List.mem_cons.1 ((insertItem_perm x ys).mem_iff.1 hz) with rfl | hz
      · exact hyx
      · exact List.rel_of_pairwise_cons h hz

theorem sortItems_sorted : ∀ l, (sortItems l).Pairwise (fun a b => leText a.1 b.1 = true)
  | [] => .nil
  | x :: xs => insertItem_sorted x _ (sortItems_sorted xs)

/-- Sorting items whose keys are different and ascending in some order gives that order. -/
theorem sortItems_eq {l m : List (Text × Val)} (hp : l.Perm m)
    (hs : m.Pairwise (fun a b => leText a.1 b.1 = true)) (hnd : (m.map Prod.fst).Nodup) :
    sortItems l = m := by
  have hpm : (sortItems l).Perm m := (sortItems_perm l).trans hp
  refine List.Perm.eq_of_pairwise ?_ (sortItems_sorted l) hs hpm
  intro a b ha hb h1 h2
  exact List.inj_on_of_nodup_map hnd (hpm.mem_iff.1 ha) hb (leText_antisymm _ _ h1 h2)

/-- The keys `"0"`, `"1"`, … of the elements of a list. -/
def elemItems (i : Nat) : List Val → List (Text × Val)
  | [] => []
  | v :: vs => (decChars i, v) :: elemItems (i + 1) vs

theorem writeElems_eq (env : Env) : ∀ (l : List Val) (i : Nat) (g : Group),
    writeElems env i l g = dict2group env (elemItems i l) g
  | [], i, g => by simp [writeElems, dict2group, elemItems]
  | v :: vs, i, g => by
    simp only [writeElems, elemItems, dict2group]
    split
    · exact writeElems_eq env vs (i + 1) _
    · rfl

theorem elemItems_mem : ∀ (l : List Val) (i : Nat) (kv : Text × Val), kv ∈ elemItems i l →
    ∃ j, i ≤ j ∧ j < i + l.length ∧ kv.1 = decChars j ∧ kv.2 ∈ l
  | [], _, _, h => by simp [elemItems] at h
  | v :: vs, i, kv, h => by
    simp only [elemItems, List.mem_cons] at h
    rcases h with rfl | h
    · exact ⟨i, by omega, by simp, rfl, by simp⟩
    · obtain ⟨j, h1, h2, h3, h4⟩ := elemItems_mem vs (i + 1) kv h
      exact ⟨j, by omega, by simp; omega, h3, List.mem_cons_of_mem _ h4⟩

theorem elemItems_nodup : ∀ (l : List Val) (i : Nat), ((elemItems i l).map Prod.fst).Nodup
  | [], _ => by simp [elemItems]
  | v :: vs, i => by
    simp only [elemItems, List.map_cons, List.nodup_cons]
    refine ⟨?_, elemItems_nodup vs (i + 1)⟩
    intro h
    obtain ⟨kv, hkv, e⟩ := List.mem_map.1 h
    obtain ⟨j, h1, _, h3, _⟩ := elemItems_mem vs (i + 1) kv hkv
    have := decChars_inj (h3.symm.trans e)
    omega

theorem leText_digits {i j : Nat} (hij : i ≤ j) (hj : j < 10) :
    leText (decChars i) (decChars j) = true := by
  have hi : i < 10 := by omega
  rw [show decChars i = [digitChar i] by rw [decChars_eq, if_pos hi],
    show decChars j = [digitChar j] by rw [decChars_eq, if_pos hj]]
  unfold leText
  rw [digitChar_toNat hi, digitChar_toNat hj]
  by_cases h : i < j
  · simp [h]
  · have : i = j := by omega
    subst this
    simp [leText]

/-- Up to ten elements, sorting by key keeps the elements in order. -/
theorem sorted_elems (l : List Val) (hl : l.length ≤ 10) {e : List (Text × Val)}
    (h : SameDict (elemItems 0 l) e) : SameList l ((sortItems e).map Prod.snd) := by
  obtain ⟨e', h1, h2⟩ := sameDict_forall2 h
  have hkeys := forall2_keys h2
  have hnd : (e'.map Prod.fst).Nodup := by rw [hkeys]; exact elemItems_nodup l 0
  have hsorted : (elemItems 0 l).Pairwise (fun a b => leText a.1 b.1 = true) := by
    have gen : ∀ (l : List Val) (i : Nat), i + l.length ≤ 10 →
        (elemItems i l).Pairwise (fun a b => leText a.1 b.1 = true) := by
      intro l
      induction l with
      | nil => intro i _; simp [elemItems]
      | cons v vs ih =>
        intro i hi
        simp only [List.length_cons] at hi
        simp only [elemItems]
        refine List.pairwise_cons.2 ⟨fun kv hkv => ?_, ih (i + 1) (by omega)⟩
        obtain ⟨j, h1, h2, h3, _⟩ := elemItems_mem vs (i + 1) kv hkv
        rw [h3]
        exact leText_digits (by omega) (by omega)
    exact gen l 0 (by omega)
  have hs' : e'.Pairwise (fun a b => leText a.1 b.1 = true) := by
    have h3 : (e'.map Prod.fst).Pairwise (fun a b => leText a b = true) := by
      rw [hkeys]; exact List.pairwise_map.2 hsorted
    exact List.pairwise_map.1 h3
  rw [sortItems_eq h1 hs' hnd]
  apply sameList_of_forall2
  have gen : ∀ (l : List Val) (i : Nat) (e' : List (Text × Val)),
      List.Forall₂ (fun a b => a.1 = b.1 ∧ Same a.2 b.2) (elemItems i l) e' →
      List.Forall₂ Same l (e'.map Prod.snd) := by
    intro l
    induction l with
    | nil => intro i e' h; simp only [elemItems] at h; cases h; exact .nil
    | cons v vs ih =>
      intro i e' h
      simp only [elemItems] at h
      cases h with
      | cons h t => exact .cons h.2 (ih _ _ t)
  exact gen l 0 e' h2

/-! ### Writing one item, then a whole dictionary -/

/-- No name of the group belongs to the key `k`. -/
def Fresh (g : Group) (k : Text) : Prop :=
  (∀ n ∈ g.attrs.map Prod.fst, attrKey n ≠ k) ∧ (∀ n ∈ g.items.map Prod.fst, itemKey n ≠ k)

/-- Writing adds attributes and items that belong to the key, and reading these gives the value. -/
def ItemOK (env : Env) (k : Text) (v : Val) : Prop :=
  ∃ A I x y v', (∀ g, Fresh g k → writeItem env k v g = .ok ⟨g.attrs ++ A, g.items ++ I⟩) ∧
    readAttrs A = .ok x ∧ readNodes env I = .ok y ∧ x ++ y = [(k, v')] ∧ Same v v' ∧
    (∀ n ∈ A.map Prod.fst, attrKey n = k) ∧ (∀ n ∈ I.map Prod.fst, itemKey n = k)

def DictOK (env : Env) (d : List (Text × Val)) : Prop :=
  ∃ A I x y, (∀ g, (∀ k ∈ d.map Prod.fst, Fresh g k) →
      dict2group env d g = .ok ⟨g.attrs ++ A, g.items ++ I⟩) ∧
    readAttrs A = .ok x ∧ readNodes env I = .ok y ∧ SameDict d (x ++ y)

theorem readAttrs_append : ∀ (a b : List (Text × Attr)) (x y : List (Text × Val)),
    readAttrs a = .ok x → readAttrs b = .ok y → readAttrs (a ++ b) = .ok (x ++ y)
  | [], b, x, y, h1, h2 => by simp [readAttrs] at h1; subst h1; simpa using h2
  | (k, a) :: rest, b, x, y, h1, h2 => by
    simp only [readAttrs] at h1
    split at h1
    · rename_i x1 x2 he1 he2
      simp only [Except.ok.injEq] at h1
      subst h1
      have := readAttrs_append rest b x2 y he2 h2
      simp [readAttrs, he1, this]
    · cases h1
    · cases h1

theorem readNodes_append (env : Env) : ∀ (a b : List (Text × Node)) (x y : List (Text × Val)),
    readNodes env a = .ok x → readNodes env b = .ok y → readNodes env (a ++ b) = .ok (x ++ y)
  | [], b, x, y, h1, h2 => by simp [readNodes] at h1; subst h1; simpa using h2
  | (k, a) :: rest, b, x, y, h1, h2 => by
    simp only [readNodes] at h1
    split at h1
    · rename_i x1 x2 he1 he2
      simp only [Except.ok.injEq] at h1
      subst h1
      have := readNodes_append env rest b x2 y he2 h2
      simp [readNodes, he1, this]
    · cases h1
    · cases h1

theorem dictOK_of_items (env : Env) : ∀ d : List (Text × Val), (d.map Prod.fst).Nodup →
    (∀ kv ∈ d, ItemOK env kv.1 kv.2) → DictOK env d
  | [], _, _ => ⟨[], [], [], [], fun g _ => by simp [dict2group], rfl, by simp [readNodes],
      by simp [SameDict]⟩
  | (k, v) :: rest, hnd, h => by
    simp only [List.map_cons, List.nodup_cons] at hnd
    obtain ⟨A1, I1, x1, y1, v', hw1, ha1, hn1, hxy1, hs1, hA1, hI1⟩ := h (k, v) List.mem_cons_self
    obtain ⟨A2, I2, x2, y2, hw2, ha2, hn2, hs2⟩ :=
      dictOK_of_items env rest hnd.2 fun kv hkv => h kv (List.mem_cons_of_mem _ hkv)
    refine ⟨A1 ++ A2, I1 ++ I2, x1 ++ x2, y1 ++ y2, ?_, readAttrs_append _ _ _ _ ha1 ha2,
      readNodes_append env _ _ _ _ hn1 hn2, ?_⟩
    · intro g hg
      simp only [dict2group, hw1 g (hg k (by simp))]
      rw [hw2]
      · simp [List.append_assoc]
      · intro k' hk'
        have hg' := hg k' (by simp only [List.map_cons, List.mem_cons]; exact .inr hk')
        have hne : k ≠ k' := fun e => hnd.1 (e ▸ hk')
        constructor
        · intro n hn
          simp only [List.map_append, List.mem_append] at hn
          rcases hn with hn | hn
          · exact hg'.1 n hn
          · rw [hA1 n hn]; exact hne
        · intro n hn
          simp only [List.map_append, List.mem_append] at hn
          rcases hn with hn | hn
          · exact hg'.2 n hn
          · rw [hI1 n hn]; exact hne
    · simp only [SameDict]
      refine ⟨v', x2 ++ y2, ?_, hs1, hs2⟩
      have hp : (x1 ++ x2 ++ (y1 ++ y2)).Perm ((x1 ++ y1) ++ (x2 ++ y2)) := by
        rw [List.append_assoc, List.append_assoc]
        apply List.Perm.append_left
        rw [← List.append_assoc, ← List.append_assoc]
        exact List.perm_append_comm.append_right _
      rw [hxy1] at hp
      exact hp

theorem fresh_empty (k : Text) : Fresh ⟨[], []⟩ k := ⟨by simp, by simp⟩

/-- What a stored dictionary reads as. -/
theorem DictOK.read {env : Env} (horder : ∀ l, (env.order l).Perm l) {d : List (Text × Val)}
    (hnd : (d.map Prod.fst).Nodup) (h : DictOK env d) :
    ∃ A I x y, dict2group env d ⟨[], []⟩ = .ok ⟨A, I⟩ ∧ readAttrs A = .ok x ∧
      readNodes env I = .ok y ∧ SameDict d (collect env x y) := by
  obtain ⟨A, I, x, y, hw, ha, hn, hs⟩ := h
  refine ⟨A, I, x, y, ?_, ha, hn, ?_⟩
  · have := hw ⟨[], []⟩ fun k _ => fresh_empty k
    simpa using this
  · exact sameDict_perm hs (collect_perm env horder x y ((sameDict_keys hs).nodup_iff.2 hnd))

end Verif.HierDict
