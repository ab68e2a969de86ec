import Verif.Spec.Bruker
/-! Lemmas about Bruker files. -/
namespace Verif.Bruker

/-! ### Base64 -/

theorem alphabet_eq : alphabet = (List.range 64).map sixChar := by decide +kernel

theorem sextet_none {c : Char} (h : c ∉ alphabet) : sextet c = none := by
  unfold sextet
  rw [List.idxOf?_eq_none_iff]
  exact h

theorem sextet_sixChar {v : Nat} (h : v < 64) : sextet (sixChar v) = some v := by
  have q : ∀ v ∈ List.range 64, sextet (sixChar v) = some v := by decide +kernel
  exact q v (List.mem_range.2 h)

theorem sixChar_ne {v : Nat} (h : v < 64) : sixChar v ≠ '=' := by
  have q : ∀ v ∈ List.range 64, sixChar v ≠ '=' := by decide +kernel
  exact q v (List.mem_range.2 h)

theorem decode_filter : ∀ (t : List Char) (pos left pads : Nat),
    decode t pos left pads = decode (t.filter isBase) pos left pads
  | [], _, _, _ => rfl
  | c :: cs, pos, left, pads => by
    by_cases hb : isBase c = true
    · rw [List.filter_cons_of_pos hb]
      unfold decode
      by_cases he : c = '='
      · rw [if_pos he, if_pos he, decode_filter cs, decode_filter cs]
      · rw [if_neg he, if_neg he]
        cases sextet c with
        | none => exact decode_filter cs _ _ _
        | some v =>
          dsimp only
          rw [decode_filter cs 1, decode_filter cs 2, decode_filter cs 3, decode_filter cs 0]
    · rw [List.filter_cons_of_neg hb, decode, ← decode_filter cs]
      have hn : c ∉ alphabet ∧ c ≠ '=' := by
        rw [alphabet_eq]
        simpa only [isBase, not_or, decide_eq_true_eq] using hb
      rw [if_neg hn.2, sextet_none hn.1]

theorem decode_six {v : Nat} (h : v < 64) (cs : List Char) (pos left pads : Nat) :
    decode (sixChar v :: cs) pos left pads =
      if pos = 0 then decode cs 1 v 0
      else if pos = 1 then (decode cs 2 v 0).map (UInt8.ofNat (left * 4 + v / 16) :: ·)
      else if pos = 2 then (decode cs 3 v 0).map (UInt8.ofNat (left % 16 * 16 + v / 4) :: ·)
      else (decode cs 0 0 0).map (UInt8.ofNat (left % 4 * 64 + v) :: ·) := by
  rw [decode, if_neg (sixChar_ne h), sextet_sixChar h]

theorem byteEq {n : Nat} {a : UInt8} (h : n = a.toNat) : UInt8.ofNat n = a := by
  rw [h]; simp

theorem decode_encode : ∀ (bs : List UInt8) (l p : Nat), decode (encode bs) 0 l p = .ok bs
  | [], _, _ => rfl
  | [a], l, p => by
    have ha := a.toNat_lt
    have e1 : UInt8.ofNat (a.toNat / 4 * 4 + a.toNat % 4 * 16 / 16) = a := byteEq (by omega)
    rw [encode, decode_six (by omega), if_pos rfl, decode_six (by omega), if_neg (by decide), if_pos rfl, e1]
    rfl
  | [a, b], l, p => by
    have ha := a.toNat_lt
    have hb := b.toNat_lt
    have e1 : UInt8.ofNat (a.toNat / 4 * 4 + (a.toNat % 4 * 16 + b.toNat / 16) / 16) = a := byteEq (by omega)
    have e2 : UInt8.ofNat ((a.toNat % 4 * 16 + b.toNat / 16) % 16 * 16 + b.toNat % 16 * 4 / 4) = b :=
      byteEq (by omega)
    rw [encode, decode_six (by omega), if_pos rfl, decode_six (by omega), if_neg (by decide), if_pos rfl,
      decode_six (by omega), if_neg (by decide), if_neg (by decide), if_pos rfl, e1, e2]
    rfl
  | a :: b :: c :: r, l, p => by
    have ha := a.toNat_lt
    have hb := b.toNat_lt
    have hc := c.toNat_lt
    have e1 : UInt8.ofNat (a.toNat / 4 * 4 + (a.toNat % 4 * 16 + b.toNat / 16) / 16) = a := byteEq (by omega)
    have e2 : UInt8.ofNat ((a.toNat % 4 * 16 + b.toNat / 16) % 16 * 16 + (b.toNat % 16 * 4 + c.toNat / 64) / 4) = b :=
      byteEq (by omega)
    have e3 : UInt8.ofNat ((b.toNat % 16 * 4 + c.toNat / 64) % 4 * 64 + c.toNat % 64) = c := byteEq (by omega)
    rw [encode, decode_six (by omega), if_pos rfl, decode_six (by omega), if_neg (by decide), if_pos rfl,
      decode_six (by omega), if_neg (by decide), if_neg (by decide), if_pos rfl, decode_six (by omega),
      if_neg (by decide), if_neg (by decide), if_neg (by decide), e1, e2, e3, decode_encode r]
    rfl

/-! ### Pixels -/

theorem values_ok {w : Nat} (hw : 0 < w) : ∀ (vs : List Nat) (fuel : Nat), (∀ v ∈ vs, v < 256 ^ w) →
    vs.length ≤ fuel → values w fuel (vs.flatMap (leBytes w)) = .ok vs
  | [], fuel, _, _ => by cases fuel <;> rfl
  | v :: vs, 0, _, h => by simp at h
  | v :: vs, fuel + 1, hv, h => by
    have hl : (leBytes w v).length = w := by simp
    rw [List.flatMap_cons]
    cases he : leBytes w v ++ vs.flatMap (leBytes w) with
    | nil =>
      have := congrArg List.length he
      rw [List.length_append, hl] at this
      simp at this
      omega
    | cons b bs =>
      rw [values, if_neg, ← he, List.take_left' hl, List.drop_left' hl,
        values_ok hw vs fuel (fun x hx => hv x (List.mem_cons_of_mem _ hx)) (by simpa using h),
        leVal_leBytes (hv v List.mem_cons_self)]
      · rfl
      · rw [← he, List.length_append, hl]; omega
      · exact fun e => by cases e

theorem length_values (w : Nat) (vs : List Nat) : (vs.flatMap (leBytes w)).length = vs.length * w := by
  induction vs with
  | nil => simp
  | cons v vs ih => rw [List.flatMap_cons, List.length_append, ih]; simp [Nat.add_mul, Nat.add_comm]

theorem plane_values {n : ImageNode} {p : Plane} {vs : List Nat} (h : PlaneHolds n p vs) :
    ∃ raw, decode p.data 0 0 0 = .ok raw ∧ values n.itemSize raw.length raw = .ok vs := by
  obtain ⟨hw, _, hv, hd⟩ := h
  refine ⟨_, ?_, values_ok hw vs _ hv ?_⟩
  · rw [decode_filter, hd, decode_encode]
  · rw [length_values]
    exact Nat.le_mul_of_pos_right _ hw

theorem pictures_ok (h : Header) (filename : Text) (n : ImageNode) : ∀ (ps : List (Plane × List Nat)),
    (∀ p ∈ ps, PlaneHolds n p.1 p.2) →
    pictures h filename n (ps.map (·.1)) = .ok (picturesOf h filename n ps)
  | [], _ => rfl
  | p :: ps, hp => by
    obtain ⟨raw, e1, e2⟩ := plane_values (hp p List.mem_cons_self)
    have ih := pictures_ok h filename n ps fun q hq => hp q (List.mem_cons_of_mem _ hq)
    have hl := (hp p List.mem_cons_self).2.1
    rw [List.map_cons, pictures, e1]
    show (values n.itemSize raw.length raw >>= _) = _
    rw [e2]
    show (if p.2.all (· == 0) = true then _ else _) = _
    by_cases ha : p.2.all (· == 0) = true
    · rw [if_pos ha, ih]
      unfold picturesOf
      rw [List.filter_cons_of_neg]
      rw [Bool.not_eq_true]
      rw [List.any_eq_false]
      rw [List.all_eq_true] at ha
      intro x hx
      have := ha x hx
      simpa using this
    · rw [if_neg ha, if_pos hl, ih]
      unfold picturesOf
      rw [List.filter_cons_of_pos]
      · rfl
      · by_contra hc
        rw [Bool.not_eq_true, List.any_eq_false] at hc
        refine ha (List.all_eq_true.2 fun x hx => ?_)
        have := hc x hx
        simpa using this

/-! ### Channels -/

theorem lastNonZero_ok : ∀ {l : List Nat} {i : Nat}, lastNonZero l = .ok i →
    (∃ v, v ≠ 0 ∧ l[i]? = some v) ∧ ∀ (j : Nat) v, i < j → l[j]? = some v → v = 0
  | [], i, h => by cases h
  | a :: l, i, h => by
    unfold lastNonZero at h
    cases hl : lastNonZero l with
    | ok k =>
      rw [hl] at h
      injection h with h
      subst h
      have ih := lastNonZero_ok hl
      refine ⟨by simpa using ih.1, fun j v hj hv => ?_⟩
      cases j with
      | zero => omega
      | succ j => exact ih.2 j v (by omega) (by simpa using hv)
    | error e =>
      rw [hl] at h
      dsimp only at h
      split at h
      · rename_i ha
        injection h with h
        subst h
        refine ⟨⟨a, ha, rfl⟩, fun j v hj hv => ?_⟩
        cases j with
        | zero => omega
        | succ j => exact lastNonZero_err hl v (List.mem_of_getElem? (by simpa using hv))
      · cases h
where
  lastNonZero_err : ∀ {l : List Nat} {e : PyErr}, lastNonZero l = .error e → ∀ v ∈ l, v = 0
    | [], _, _, v, hv => by cases hv
    | a :: l, e, h, v, hv => by
      unfold lastNonZero at h
      cases hl : lastNonZero l with
      | ok k => rw [hl] at h; cases h
      | error e' =>
        rw [hl] at h
        dsimp only at h
        split at h
        · cases h
        · rename_i ha
          rcases List.mem_cons.1 hv with hv | hv
          · subst hv; simpa using ha
          · exact lastNonZero_err hl v hv

theorem nearest_of {s : Spectrum} {e : Rat} {n : Int} (h : energyToChannel s e = .ok n) : Nearest s e n := by
  unfold energyToChannel at h
  split at h
  · cases h
  · rename_i hs
    injection h with h
    intro k
    have herr := roundEven_err ((e - s.offset) / s.scale)
    rw [h] at herr
    have key : ∀ m : Int, |s.offset + m * s.scale - e| = |(m : Rat) - (e - s.offset) / s.scale| * |s.scale| := by
      intro m
      rw [← abs_mul]
      congr 1
      field_simp
      ring
    rw [key n, key k]
    refine mul_le_mul_of_nonneg_right ?_ (abs_nonneg _)
    by_cases hk : k = n
    · rw [hk]
    · have h1 : (1 : Rat) ≤ |(k : Rat) - n| := by
        have : (1 : Int) ≤ |k - n| := Int.one_le_abs (sub_ne_zero.2 hk)
        exact_mod_cast this
      have h2 := abs_sub_le (k : Rat) ((e - s.offset) / s.scale) n
      have h3 : |(e - s.offset) / s.scale - (n : Rat)| = |(n : Rat) - (e - s.offset) / s.scale| := abs_sub_comm _ _
      linarith

/-! ### Sizes -/

theorem blocks_ceil {n d : Nat} (hd : 0 < d) : Blocks n d (ceilDiv n d) := by
  unfold Blocks ceilDiv
  have h1 := Nat.div_add_mod (n + d - 1) d
  have h2 := Nat.mod_lt (n + d - 1) hd
  constructor
  · rw [Nat.mul_comm]; omega
  · intro j hj
    have : (j + 1) * d ≤ (n + d - 1) / d * d := Nat.mul_le_mul_right _ hj
    rw [Nat.mul_comm ((n + d - 1) / d)] at this
    rw [Nat.add_mul] at this
    omega

/-! ### Names -/

theorem contains_iff {x : Text} : ∀ {t : Text}, contains x t = true ↔ x <:+: t
  | [] => by
    unfold contains
    rw [List.isEmpty_iff, List.infix_nil]
  | c :: t => by
    unfold contains
    rw [Bool.or_eq_true, List.isPrefixOf_iff_prefix, contains_iff (t := t), List.infix_cons_iff]

theorem decChars_lt {k : Nat} (h : k < 10) : ∃ c, decChars k = [c] ∧ isDigit c = true ∧ decVal [c] = k := by
  have q : ∀ k ∈ List.range 10, decChars k = [digitChar k] := by decide
  have e := q k (List.mem_range.2 h)
  refine ⟨_, e, decChars_digits k _ (by rw [e]; simp), ?_⟩
  rw [← e, decVal_decChars]

theorem available_ok : ∀ (es : List (Nat ⊕ Text)), (∀ e ∈ es, IsEntry e) →
    availableIndexes (es.map entryName) = .ok (mapNumbers es)
  | [], _ => rfl
  | .inl k :: es, h => by
    have ih := available_ok es fun e he => h e (List.mem_cons_of_mem _ he)
    obtain ⟨c, hc, hd, hv⟩ := decChars_lt (k := k) (h _ List.mem_cons_self)
    rw [List.map_cons, availableIndexes, ih, if_pos]
    · have : (entryName (.inl k)).getLast? = some c := by
        unfold entryName
        dsimp only
        rw [hc, List.getLast?_concat]
      rw [this]
      dsimp only
      rw [if_pos hd, hv]
      rfl
    · rw [contains_iff]
      exact (List.prefix_append _ _).isInfix
  | .inr t :: es, h => by
    have ih := available_ok es fun e he => h e (List.mem_cons_of_mem _ he)
    rw [List.map_cons, availableIndexes, ih, if_neg]
    · rfl
    · rw [contains_iff]
      exact h _ List.mem_cons_self

theorem minimum_ok : ∀ {l : List Nat} {i : Nat}, minimum l = .ok i → i ∈ l ∧ ∀ j ∈ l, i ≤ j
  | [], _, h => by cases h
  | [n], i, h => by
    injection h with h
    subst h
    simp
  | n :: m :: ns, i, h => by
    unfold minimum at h
    cases hm : minimum (m :: ns) with
    | error e => rw [hm] at h; cases h
    | ok k =>
      rw [hm] at h
      injection h with h
      have ih := minimum_ok hm
      rw [← h]
      constructor
      · rcases Nat.le_total n k with hle | hle
        · rw [Nat.min_eq_left hle]; exact List.mem_cons_self
        · rw [Nat.min_eq_right hle]; exact List.mem_cons_of_mem _ ih.1
      · intro j hj
        rcases List.mem_cons.1 hj with hj | hj
        · subst hj; exact Nat.min_le_left _ _
        · exact Nat.le_trans (Nat.min_le_right _ _) (ih.2 j hj)

theorem minimum_some : ∀ {l : List Nat}, l ≠ [] → ∃ i, minimum l = .ok i
  | [], h => absurd rfl h
  | [n], _ => ⟨n, rfl⟩
  | n :: m :: ns, _ => by
    obtain ⟨k, hk⟩ := minimum_some (l := m :: ns) (by simp)
    exact ⟨min n k, by unfold minimum; rw [hk]; rfl⟩

theorem selected_iff {av : List Nat} {ix : Index} {is : List Nat} : selected av ix = .ok is ↔ Chosen av ix is := by
  cases ix with
  | none =>
    constructor
    · intro h
      unfold selected at h
      cases hm : minimum av with
      | error e => rw [hm] at h; cases h
      | ok i =>
        rw [hm] at h
        injection h with h
        exact ⟨i, h.symm, minimum_ok hm⟩
    · rintro ⟨i, rfl, hi, hmin⟩
      obtain ⟨k, hk⟩ := minimum_some (l := av) (fun e => by rw [e] at hi; cases hi)
      have := minimum_ok hk
      have e : k = i := Nat.le_antisymm (this.2 i hi) (hmin k this.1)
      unfold selected
      rw [hk, e]
      rfl
  | all =>
    constructor
    · intro h; injection h with h; exact h.symm
    · intro h; unfold Chosen at h; rw [h]; rfl
  | «at» i =>
    show (if i ∈ av then .ok [i] else Except.error PyErr.indexError) = Except.ok is ↔ is = [i] ∧ i ∈ av
    split
    · rename_i hi
      constructor
      · intro h; injection h with h; exact ⟨h.symm, hi⟩
      · rintro ⟨h, _⟩; rw [h]
    · rename_i hi
      constructor
      · intro h; cases h
      · rintro ⟨_, h⟩; exact absurd h hi

/-! ### Lines -/

theorem upper_eq (c : Char) : upper c = c.toUpper := by
  by_cases h : 'a' ≤ c ∧ c ≤ 'z'
  · have q : ∀ k ∈ List.range 128, upper (Char.ofNat k) = (Char.ofNat k).toUpper := by decide +kernel
    have hk : c.toNat < 128 := Nat.lt_of_le_of_lt (show c.toNat ≤ 122 from h.2) (by decide)
    have := q c.toNat (List.mem_range.2 hk)
    rwa [Char.ofNat_toNat] at this
  · unfold upper Char.toUpper
    rw [if_neg h]
    split
    · rename_i h'
      exact absurd h' h
    · rfl

theorem lower_eq (c : Char) : lower c = c.toLower := by
  by_cases h : 'A' ≤ c ∧ c ≤ 'Z'
  · have q : ∀ k ∈ List.range 128, lower (Char.ofNat k) = (Char.ofNat k).toLower := by decide +kernel
    have hk : c.toNat < 128 := Nat.lt_of_le_of_lt (show c.toNat ≤ 90 from h.2) (by decide)
    have := q c.toNat (List.mem_range.2 hk)
    rwa [Char.ofNat_toNat] at this
  · unfold lower Char.toLower
    rw [if_neg h]
    split
    · rename_i h'
      exact absurd h' h
    · rfl

theorem parseLine_eq (l : Text) : parseLine l = family l := by
  match l with
  | [] => rfl
  | [c] =>
    show [upper c, lower 'a'] = _
    rw [upper_eq]
    rfl
  | [c, d] =>
    show [upper c, lower d] = _
    rw [upper_eq, lower_eq]
    rfl
  | c :: d :: e :: r =>
    unfold parseLine
    rw [if_neg (by simp), if_pos (by simp)]
    show [upper c, lower d] = _
    rw [upper_eq, lower_eq]
    rfl

theorem before_trans {a b c : Text} : textLe a b = true → textLe b c = true → textLe a c = true := by
  simp only [textLe, decide_eq_true_eq]
  exact fun h1 h2 => le_trans h1 h2

theorem before_total (a b : Text) : (textLe a b || textLe b a) = true := by
  simp only [textLe, Bool.or_eq_true, decide_eq_true_eq]
  exact le_total (a.map Char.toNat) (b.map Char.toNat)

theorem before_iff {a b : Text} : textLe a b = true ↔ Before a b := by
  unfold textLe Before
  rw [decide_eq_true_eq]

theorem insert_perm (t : Text) : ∀ l, (insertText t l).Perm (t :: l)
  | [] => List.Perm.refl _
  | u :: l => by
    unfold insertText
    split
    · exact List.Perm.refl _
    · exact ((insert_perm t l).cons u).trans (List.Perm.swap t u l)

theorem insert_sorted (t : Text) : ∀ {l : List Text}, l.Pairwise Before → (insertText t l).Pairwise Before
  | [], _ => List.pairwise_singleton _ _
  | u :: l, h => by
    rw [List.pairwise_cons] at h
    unfold insertText
    split
    · rename_i hle
      rw [List.pairwise_cons]
      refine ⟨fun x hx => ?_, List.pairwise_cons.2 h⟩
      rcases List.mem_cons.1 hx with hx | hx
      · rw [hx]; exact before_iff.1 hle
      · exact before_iff.1 (before_trans hle (before_iff.2 (h.1 x hx)))
    · rename_i hle
      rw [List.pairwise_cons]
      refine ⟨fun x hx => ?_, insert_sorted t h.2⟩
      rcases List.mem_cons.1 ((insert_perm t l).mem_iff.1 hx) with hx | hx
      · rw [hx]
        have := before_total t u
        rw [Bool.or_eq_true] at this
        exact before_iff.1 (this.resolve_left hle)
      · exact h.1 x hx

theorem sort_sorted : ∀ l : List Text, (sortTexts l).Pairwise Before
  | [] => List.Pairwise.nil
  | t :: l => insert_sorted t (sort_sorted l)

theorem sort_perm : ∀ l : List Text, (sortTexts l).Perm l
  | [] => List.Perm.refl _
  | t :: l => (insert_perm t _).trans ((sort_perm l).cons t)

theorem setKw_keys {α : Type} {k : Text} {v : α} : ∀ {d : List (Text × α)}, k ∈ d.map (·.1) →
    (setKw k v d).map (·.1) = d.map (·.1)
  | [], h => by cases h
  | (k', v') :: d, h => by
    unfold setKw
    split
    · rename_i e; simp [e]
    · rename_i e
      rw [List.map_cons, List.map_cons, setKw_keys]
      rcases List.mem_cons.1 h with h | h
      · exact absurd h.symm e
      · exact h

theorem elements_keys : ∀ (rs : List (Text × Option Text)) (d : List (Text × Text)), (d.map (·.1)).Nodup →
    ((elements rs d).map (·.1)).Nodup ∧
    ∀ t, t ∈ (elements rs d).map (·.1) ↔ t ∈ d.map (·.1) ∨ t ∈ rs.map (·.1)
  | [], d, h => ⟨h, fun t => by simp [elements]⟩
  | (el, l) :: rs, d, h => by
    unfold elements
    by_cases he : el ∈ d.map (·.1)
    · have ek := setKw_keys (v := l.getD "Ka".toList) he
      have ih := elements_keys rs (setKw el (l.getD "Ka".toList) d) (by rw [ek]; exact h)
      refine ⟨ih.1, fun t => ?_⟩
      rw [ih.2, ek, List.map_cons, List.mem_cons]
      constructor
      · rintro (h | h)
        · exact .inl h
        · exact .inr (.inr h)
      · rintro (h | h | h)
        · exact .inl h
        · rw [h]; exact .inl he
        · exact .inr h
    · have ek := setKw_new (v := l.getD "Ka".toList) he
      have ih := elements_keys rs (setKw el (l.getD "Ka".toList) d) (by
        rw [ek, List.map_append, List.nodup_append]
        refine ⟨h, by simp, ?_⟩
        intro a ha b hb
        simp only [List.map_cons, List.map_nil, List.mem_singleton] at hb
        rw [hb]
        exact fun e => he (e ▸ ha))
      refine ⟨ih.1, fun t => ?_⟩
      rw [ih.2, ek, List.map_append, List.mem_append, List.map_cons, List.mem_cons]
      simp [or_assoc]

theorem elements_distinct : ∀ (rs : List (Text × Option Text)) (d : List (Text × Text)),
    (rs.map (·.1)).Nodup → (∀ t ∈ rs.map (·.1), t ∉ d.map (·.1)) →
    elements rs d = d ++ rs.map fun r => (r.1, r.2.getD "Ka".toList)
  | [], d, _, _ => by simp [elements]
  | (el, l) :: rs, d, h, hd => by
    rw [List.map_cons, List.nodup_cons] at h
    unfold elements
    rw [setKw_new (hd el (by simp)), elements_distinct rs _ h.2]
    · simp
    · intro t ht
      rw [List.map_append, List.mem_append, not_or]
      refine ⟨hd t (by rw [List.map_cons]; exact List.mem_cons_of_mem _ ht), ?_⟩
      simp only [List.map_cons, List.map_nil, List.mem_singleton]
      exact fun e => h.1 (e ▸ ht)

theorem unnamed_none : ∀ {l : List (Option Text × ImageNode)}, (∀ e ∈ l, ∃ t, e.1 = some t ∧ t ≠ []) →
    unnamed l = none
  | [], _ => rfl
  | (name, n) :: l, h => by
    obtain ⟨t, ht, hne⟩ := h _ List.mem_cons_self
    unfold unnamed
    rw [unnamed_none fun e he => h e (List.mem_cons_of_mem _ he)]
    dsimp only at ht ⊢
    rw [ht]
    exact if_neg hne

theorem unnamed_iff {n : ImageNode} : ∀ {a b : List (Option Text × ImageNode)} {name : Option Text},
    (name = none ∨ name = some []) → (∀ e ∈ b, ∃ t, e.1 = some t ∧ t ≠ []) →
    unnamed (a ++ (name, n) :: b) = some n
  | [], b, name, hn, hb => by
    rw [List.nil_append, unnamed, unnamed_none hb]
    dsimp only
    rw [if_pos]
    rcases hn with rfl | rfl <;> rfl
  | (m, x) :: a, b, name, hn, hb => by
    rw [List.cons_append, unnamed, unnamed_iff hn hb]

theorem roundEven_nonneg {x : Rat} (h : 0 ≤ x) : 0 ≤ roundEven x := by
  have := abs_le.1 (roundEven_err x)
  by_contra hc
  have h2 : roundEven x ≤ -1 := by omega
  have h3 : ((roundEven x : Int) : Rat) ≤ -1 := by exact_mod_cast h2
  linarith [this.1]

end Verif.Bruker
