import Verif.Spec.JeolTree
namespace Verif.JeolTree

/-! ### Paths -/

/-- The dictionary at a path. -/
def dictAt : List Text → Items → Option Items
  | [], d => some d
  | p :: ps, d => match getKw p d with
    | some (.dict e) => dictAt ps e
    | _ => none

/-- Replaces the dictionary at a path. -/
def putAt : List Text → Items → Items → Items
  | [], d', _ => d'
  | p :: ps, d', d => match getKw p d with
    | some (.dict e) => setKw p (.dict (putAt ps d' e)) d
    | _ => d

theorem setAt_ok {k : Text} {v : Node} : ∀ {p : List Text} {root d : Items}, dictAt p root = some d →
    setAt p k v root = .ok (putAt p (setKw k v d) root)
  | [], root, d, h => by cases h; rfl
  | q :: p, root, d, h => by
    rw [dictAt] at h
    rw [setAt, putAt]
    split at h
    · rename_i e he
      rw [he]
      dsimp only
      rw [setAt_ok h]
    · cases h

theorem dictAt_putAt {d' : Items} : ∀ {p : List Text} {root d : Items}, dictAt p root = some d →
    dictAt p (putAt p d' root) = some d'
  | [], root, d, h => rfl
  | q :: p, root, d, h => by
    rw [dictAt] at h
    rw [putAt, dictAt]
    split at h
    · rename_i e he
      try rw [he]
      try dsimp only
      rw [getKw_setKw, if_pos rfl]
      exact dictAt_putAt h
    · cases h

theorem setKw_setKw {α : Type} (k : Text) (v w : α) : ∀ d : List (Text × α),
    setKw k w (setKw k v d) = setKw k w d
  | [] => by simp [setKw]
  | (k', u) :: d => by
    rw [setKw, setKw]
    by_cases h : k' = k
    · simp [h, setKw]
    · simp [h, setKw, setKw_setKw k v w d]

theorem putAt_putAt {d1 d2 : Items} : ∀ {p : List Text} {root d : Items}, dictAt p root = some d →
    putAt p d2 (putAt p d1 root) = putAt p d2 root
  | [], root, d, h => rfl
  | q :: p, root, d, h => by
    rw [dictAt] at h
    split at h
    · rename_i e he
      have e1 : putAt (q :: p) d1 root = setKw q (.dict (putAt p d1 e)) root := by
        rw [putAt, he]
      have e2 : putAt (q :: p) d2 root = setKw q (.dict (putAt p d2 e)) root := by
        rw [putAt, he]
      rw [e1, e2, putAt, getKw_setKw, if_pos rfl]
      dsimp only
      rw [putAt_putAt h, setKw_setKw]
    · cases h

theorem dictAt_snoc {k : Text} {e : Items} : ∀ {p : List Text} {root d : Items},
    dictAt p root = some d → getKw k d = some (.dict e) → dictAt (p ++ [k]) root = some e
  | [], root, d, h, hk => by
    cases h
    rw [List.nil_append, dictAt, hk]
    rfl
  | q :: p, root, d, h, hk => by
    rw [dictAt] at h
    rw [List.cons_append, dictAt]
    split at h
    · rename_i e he
      try rw [he]
      exact dictAt_snoc h hk
    · cases h

theorem putAt_snoc {k : Text} {e e' : Items} : ∀ {p : List Text} {root d : Items},
    dictAt p root = some d → getKw k d = some (.dict e) →
    putAt (p ++ [k]) e' root = putAt p (setKw k (.dict e') d) root
  | [], root, d, h, hk => by
    cases h
    show putAt [k] e' root = setKw k (.dict e') root
    simp only [putAt, hk]
  | q :: p, root, d, h, hk => by
    rw [dictAt] at h
    rw [List.cons_append, putAt, putAt]
    split at h
    · rename_i e he
      try rw [he]
      try dsimp only
      rw [putAt_snoc h hk]
    · cases h

theorem walk_ok : ∀ {p : List Text} {root d : Items}, dictAt p root = some d → walk p root = .ok ()
  | [], _, _, _ => rfl
  | q :: p, root, d, h => by
    rw [dictAt] at h
    rw [walk]
    split at h
    · rename_i e he
      rw [he]
      exact walk_ok h
    · cases h

theorem putAt_self : ∀ {p : List Text} {root d : Items}, dictAt p root = some d →
    putAt p d root = root
  | [], _, _, h => by cases h; rfl
  | q :: p, root, d, h => by
    rw [dictAt] at h
    rw [putAt]
    split at h
    · rename_i e he
      try rw [he]
      try dsimp only
      rw [putAt_self h, setKw_same he]
    · cases h

/-! ### Reading an entry -/

theorem dropWhile_zero (pad : Nat) (l : List UInt8) :
    (List.replicate pad (0 : UInt8) ++ l).dropWhile (fun x => decide (x = 0)) = l.dropWhile (fun x => decide (x = 0)) := by
  induction pad with
  | zero => rfl
  | succ n ih => rw [List.replicate_succ, List.cons_append, List.dropWhile_cons_of_pos (by simp), ih]

theorem rstripNul_pad {bs : List UInt8} (pad : Nat) (h : ∀ b, bs.getLast? = some b → b ≠ 0) :
    rstripNul (bs ++ List.replicate pad 0) = bs := by
  unfold rstripNul
  rw [List.reverse_append, List.reverse_replicate, dropWhile_zero]
  have : bs.reverse.dropWhile (fun x => decide (x = 0)) = bs.reverse := by
    cases hr : bs.reverse with
    | nil => rfl
    | cons b t =>
      rw [List.dropWhile_cons_of_neg]
      have h1 : bs.getLast? = some b := by
        rw [List.getLast?_eq_head?_reverse, hr]; rfl
      simpa using h b h1
  rw [this, List.reverse_reverse]

theorem ofNat_ne_zero {n : Nat} (h0 : 0 < n) (h : n < 128) : UInt8.ofNat n ≠ 0 := by
  intro e
  have := congrArg UInt8.toNat e
  rw [UInt8.toNat_ofNat'] at this
  simp at this
  omega

theorem ascii_last {t : Text} (h : ∀ c, t.getLast? = some c → 0 < c.toNat ∧ c.toNat < 128) {b : UInt8}
    (hb : (ascii t).getLast? = some b) : b ≠ 0 ∧ b < 128 := by
  unfold ascii at hb
  rw [List.getLast?_map] at hb
  cases hl : t.getLast? with
  | none => rw [hl] at hb; cases hb
  | some c =>
    rw [hl] at hb
    obtain rfl := Option.some.inj hb
    have := h c hl
    refine ⟨ofNat_ne_zero this.1 this.2, ?_⟩
    rw [UInt8.lt_iff_toNat_lt, UInt8.toNat_ofNat']
    have : c.toNat % 2 ^ 8 = c.toNat := Nat.mod_eq_of_lt (by omega)
    rw [this]
    have h128 : (128 : UInt8).toNat = 128 := rfl
    omega

theorem isAscii_last {t : Text} (h : IsAscii t) (c : Char) (hc : t.getLast? = some c) :
    0 < c.toNat ∧ c.toNat < 128 := h c (List.mem_of_getLast? hc)

theorem keyName_ok {dec : List UInt8 → Option Text} (hdec : Decodes dec) {raw : List UInt8}
    {name : Text} (h : NameBytes raw name) : keyName dec raw = .ok name := by
  obtain ⟨pad, ⟨hne, ha, rfl⟩ | ⟨ha, rfl⟩ | ⟨rfl, rfl⟩⟩ := h
  · unfold keyName
    rw [rstripNul_pad pad fun b hb => (ascii_last (isAscii_last ha) hb).1]
    dsimp only
    obtain ⟨c, t, rfl⟩ := List.exists_cons_of_ne_nil hne
    have hc := ha c (List.mem_cons_self ..)
    rw [if_neg]
    · cases hl : (ascii (c :: t)).getLast? with
      | none => simp [ascii] at hl
      | some b =>
        dsimp only
        have := (ascii_last (isAscii_last ha) hl).2
        rw [if_neg (by rintro rfl; exact absurd this (by decide)), hdec _ fun c hc => (ha c hc).2]
    · intro e
      have e1 : UInt8.ofNat c.toNat = 0xce := (List.cons.inj e).1
      have := congrArg UInt8.toNat e1
      rw [UInt8.toNat_ofNat', Nat.mod_eq_of_lt (by omega)] at this
      have h2 : (0xce : UInt8).toNat = 206 := rfl
      omega
  · unfold keyName
    have : ascii name ++ 222 :: List.replicate pad 0 = (ascii name ++ [222]) ++ List.replicate pad 0 := by
      simp
    rw [this, rstripNul_pad pad (by
      intro b hb
      rw [List.getLast?_concat] at hb
      obtain rfl := Option.some.inj hb
      decide)]
    dsimp only
    rw [if_neg]
    · rw [List.getLast?_concat]
      dsimp only
      rw [if_pos rfl, List.dropLast_concat, hdec _ fun c hc => (ha c hc).2]
    · intro e
      have := congrArg List.getLast? e
      rw [List.getLast?_concat] at this
      exact absurd this (by decide)
  · unfold keyName
    rw [rstripNul_pad pad (by decide)]
    rfl

theorem itemsOf_bytes {w : Nat} : ∀ (ns : List Nat) (rest : List UInt8), (∀ n ∈ ns, n < 256 ^ w) →
    itemsOf w ns.length (ns.flatMap (leBytes w) ++ rest) = ns
  | [], _, _ => rfl
  | n :: ns, rest, h => by
    have hl : (leBytes w n).length = w := by simp
    rw [List.flatMap_cons, List.length_cons, itemsOf, if_neg (by simp), List.append_assoc,
      List.take_left' hl, List.drop_left' hl,
      itemsOf_bytes ns rest fun m hm => h m (List.mem_cons_of_mem _ hm),
      leVal_leBytes (h n (List.mem_cons_self ..))]

theorem length_bytes (w : Nat) : ∀ ns : List Nat, (ns.flatMap (leBytes w)).length = ns.length * w
  | [] => by simp
  | n :: ns => by
    rw [List.flatMap_cons, List.length_append, length_bytes w ns, leBytes_length, List.length_cons]
    ring

theorem toSigned_small {n : Nat} (h : n < 2 ^ 31) : toSigned 4 n = n := by
  unfold toSigned
  rw [if_pos]
  have : 256 ^ 4 = 2 * 2 ^ 31 := by decide
  omega

theorem lt4 {n : Nat} (h : n < 2 ^ 31) : n < 256 ^ 4 := Nat.lt_trans h (by decide)

theorem splitChar_joinNul : ∀ (ts : List Text), ts ≠ [] → (∀ t ∈ ts, IsAscii t) →
    splitChar (Char.ofNat 0) (joinNul ts) = ts
  | [t], _, h => by
    rw [joinNul, splitChar_none]
    intro hm
    exact absurd (h t (List.mem_cons_self ..) _ hm).1 (by decide)
  | t :: u :: ts, _, h => by
    rw [joinNul, splitChar_append, splitChar_joinNul (u :: ts) (by simp)
      fun r hr => h r (List.mem_cons_of_mem _ hr)]
    intro hm
    exact absurd (h t (List.mem_cons_self ..) _ hm).1 (by decide)

theorem joinNul_ascii : ∀ (ts : List Text), (∀ t ∈ ts, IsAscii t) → ∀ c ∈ joinNul ts, c.toNat < 128
  | [], _, c, hc => by cases hc
  | [t], h, c, hc => (h t (List.mem_cons_self ..) c hc).2
  | t :: u :: ts, h, c, hc => by
    rw [joinNul] at hc
    rcases List.mem_append.1 hc with hc | hc
    · exact (h t (List.mem_cons_self ..) c hc).2
    · rcases List.mem_cons.1 hc with rfl | hc
      · decide
      · exact joinNul_ascii (u :: ts) (fun r hr => h r (List.mem_cons_of_mem _ hr)) c hc

theorem joinNul_last : ∀ (ts : List Text) (t : Text), ts.getLast? = some t → t ≠ [] →
    (joinNul ts).getLast? = t.getLast?
  | [], t, h, _ => by cases h
  | [u], t, h, _ => by
    obtain rfl := Option.some.inj h
    rfl
  | u :: v :: ts, t, h, hne => by
    have ih := joinNul_last (v :: ts) t (by rw [← h, List.getLast?_cons_cons]) hne
    rw [joinNul, List.getLast?_append, List.getLast?_cons, ih]
    cases hl : t.getLast? with
    | none => exact absurd (List.getLast?_eq_none_iff.1 hl) hne
    | some c => rfl

theorem numTypes_ok {ty w : Nat} (h : (ty, w) ∈ numTypes) :
    itemsize ty = some w ∧ isChars ty = false ∧ ty ≠ 0 ∧ ty < 2 ^ 31 ∧ 0 < w ∧
      (numTypes.lookup ty).getD 0 = w := by
  revert ty w
  have : ∀ e ∈ numTypes, itemsize e.1 = some e.2 ∧ isChars e.1 = false ∧ e.1 ≠ 0 ∧ e.1 < 2 ^ 31 ∧
      0 < e.2 ∧ (numTypes.lookup e.1).getD 0 = e.2 := by decide +kernel
  intro ty w h
  exact this (ty, w) h

theorem textTypes_ok {ty : Nat} (h : ty ∈ textTypes) :
    itemsize ty = some 1 ∧ isChars ty = true ∧ ty ≠ 0 ∧ ty < 2 ^ 31 := by
  revert ty
  decide +kernel

theorem readValue_ok {dec : List UInt8 → Option Text} (hdec : Decodes dec) {c : Content} {v : Value}
    (hg : c.Good) (hv : c.value = some v) (rest : List UInt8) :
    readValue dec c.ty (c.bytes.length : Nat) (c.bytes ++ rest) = .ok (v, rest) := by
  cases c with
  | group => cases hv
  | nums ty ns =>
    obtain ⟨w, hw, hn⟩ := hg
    obtain ⟨h1, h2, -, -, h5, h6⟩ := numTypes_ok hw
    unfold readValue
    simp only [Content.ty, Content.bytes, h1, h2, h6, length_bytes]
    have hlen : ((ns.length * w : Nat) : Int) / (w : Int) = ns.length := by
      rw [Int.natCast_mul, Int.mul_ediv_cancel _ (by omega)]
    rw [hlen, if_neg (by simp), if_neg (by omega), Int.toNat_natCast, itemsOf_bytes ns rest hn,
      List.drop_left' (length_bytes w ns)]
    cases ns with
    | nil => cases hv; rfl
    | cons a t =>
      cases t with
      | nil => cases hv; rfl
      | cons b t => cases hv; rfl
  | texts ty ts pad =>
    obtain ⟨hty, ha, hlast⟩ := hg
    obtain ⟨h1, h2, -, -⟩ := textTypes_ok hty
    have hne : ts ≠ [] := by
      rcases hlast with rfl | ⟨t, ht, -⟩
      · simp
      · rintro rfl; cases ht
    have hstrip : rstripNul (ascii (joinNul ts) ++ List.replicate pad 0) = ascii (joinNul ts) := by
      apply rstripNul_pad
      intro b hb
      refine (ascii_last ?_ hb).1
      intro c hc
      rcases hlast with rfl | ⟨t, ht, hte⟩
      · cases hc
      · rw [joinNul_last ts t ht hte] at hc
        exact ha t (List.mem_of_getLast? ht) c (List.mem_of_getLast? hc)
    unfold readValue
    rw [show (Content.texts ty ts pad).ty = ty from rfl, h1]
    dsimp only
    rw [if_pos h2, show (Content.texts ty ts pad).bytes =
      ascii (joinNul ts) ++ List.replicate pad 0 from rfl]
    unfold readLen
    rw [if_neg (by omega), Int.toNat_natCast, List.take_left' rfl, List.drop_left' rfl]
    dsimp only
    rw [hstrip, hdec _ (joinNul_ascii ts ha)]
    dsimp only
    rw [splitChar_joinNul ts hne ha]
    cases ts with
    | nil => exact absurd rfl hne
    | cons a t =>
      cases t with
      | nil => cases hv; rfl
      | cons b t => cases hv; rfl

theorem readEntry_ok {dec : List UInt8 → Option Text} (hdec : Decodes dec) {raw : List UInt8}
    {name : Text} {c : Content} {below : List Tree} (hn : NameBytes raw name) (hg : c.Good)
    (hr : raw.length < 2 ^ 31) (hb : c.bytes.length < 2 ^ 31) (rest : List UInt8) :
    readEntry dec ((Tree.node raw name c below).head ++ rest) =
      .ok (name, c.value.map fun v => (c.ty, v), rest) := by
  have hr4 : raw.length < 256 ^ 4 := lt4 hr
  have hb4 : c.bytes.length < 256 ^ 4 := lt4 hb
  unfold readEntry readInt Tree.head
  simp only [List.append_assoc]
  rw [if_neg (by simp)]
  rw [List.take_left' (by simp), List.drop_left' (by simp), leVal_leBytes hr4, toSigned_small hr]
  simp only [bind, Except.bind, readLen]
  rw [if_neg (by omega), Int.toNat_natCast, List.take_left' rfl, List.drop_left' rfl]
  dsimp only
  rw [keyName_ok hdec hn]
  dsimp only
  rw [if_neg (by simp only [List.length_append, leBytes_length]; omega)]
  have e8 : List.drop 8 (leBytes 4 c.ty ++ (leBytes 4 c.bytes.length ++ (c.bytes ++ rest))) =
      c.bytes ++ rest := by
    rw [← List.append_assoc, List.drop_left' (by simp)]
  have e4 : List.drop 4 (leBytes 4 c.ty ++ (leBytes 4 c.bytes.length ++ (c.bytes ++ rest))) =
      leBytes 4 c.bytes.length ++ (c.bytes ++ rest) := List.drop_left' (by simp)
  rw [e8, e4, List.take_left' (by simp), List.take_left' (by simp),
    leVal_leBytes hb4, toSigned_small hb]
  have hty : c.ty < 2 ^ 31 := by
    cases c with
    | group => exact Nat.zero_lt_succ _
    | nums ty ns => obtain ⟨w, hw, -⟩ := hg; exact (numTypes_ok hw).2.2.2.1
    | texts ty ts pad => exact (textTypes_ok hg.1).2.2.2
  rw [leVal_leBytes (lt4 hty)]
  cases hv : c.value with
  | none =>
    have : c = .group := by
      cases c with
      | group => rfl
      | nums ty ns => rcases ns with _ | ⟨a, _ | ⟨b, t⟩⟩ <;> cases hv
      | texts ty ts pad => rcases ts with _ | ⟨a, _ | ⟨b, t⟩⟩ <;> cases hv
    subst this
    rfl
  | some v =>
    have h0 : c.ty ≠ 0 := by
      cases c with
      | group => cases hv
      | nums ty ns => obtain ⟨w, hw, -⟩ := hg; exact (numTypes_ok hw).2.2.1
      | texts ty ts pad => exact (textTypes_ok hg.1).2.2.1
    rw [if_neg h0, readValue_ok hdec hg hv]
    rfl

/-! ### The tree -/

theorem isPage_iff (k : Text) : isPage k = true ↔ Paged k := by
  unfold isPage
  rw [decide_eq_true_eq]
  constructor
  · intro h
    rcases List.eq_nil_or_concat k with rfl | ⟨a, c, rfl⟩
    · simp at h
    · rw [List.concat_eq_append] at h ⊢
      rw [List.dropLast_concat] at h
      refine ⟨a.take ((a ++ [c]).length - 5), c, ?_⟩
      have : a = a.take ((a ++ [c]).length - 5) ++ ['P', 'A', 'G', 'E'] := by
        conv_lhs => rw [← List.take_append_drop ((a ++ [c]).length - 5) a]
        rw [h]
      conv_lhs => rw [this]
      simp
  · rintro ⟨a, c, rfl⟩
    have : a ++ ['P', 'A', 'G', 'E', c] = (a ++ ['P', 'A', 'G', 'E']) ++ [c] := by simp
    rw [this, List.dropLast_concat, List.drop_left' (by simp)]

mutual
/-- Marks of a tree. -/
def Tree.marks : Tree → Nat
  | .node _ _ _ below => marksAll below + 2
def marksAll : List Tree → Nat
  | [] => 0
  | t :: ts => t.marks + marksAll ts
end

mutual
theorem marks_le : ∀ t : Tree, t.marks ≤ t.enc.length
  | .node raw name c below => by
    have := marksAll_le below
    rw [Tree.marks, Tree.enc]
    simp only [List.length_cons, List.length_append, List.length_nil]
    omega
theorem marksAll_le : ∀ ts : List Tree, marksAll ts ≤ (encAll ts).length
  | [] => Nat.le_refl _
  | t :: ts => by
    have h1 := marks_le t
    have h2 := marksAll_le ts
    rw [marksAll, encAll, List.length_append]
    omega
end

/-- The steps at the beginning and at the end of an entry. -/
theorem parse_enter {dec : List UInt8 → Option Text} {n : Nat} {s s' : St} {f f' : List UInt8}
    {key : Text} {c : Option (Nat × Value)} (h1 : readEntry dec f = .ok (key, c, f'))
    (h2 : enter s key c = .ok s') : parse dec (n + 1) s (1 :: f) = parse dec n s' f' := by
  rw [parse, if_pos rfl, h1]
  dsimp only
  rw [h2]

theorem parse_leave {dec : List UInt8 → Option Text} {n : Nat} {root d : Items} {p cur : List Text}
    {k : Text} (hp : dictAt p root = some d) (f : List UInt8) :
    parse dec (n + 1) ⟨root, p ++ [k], cur⟩ (255 :: f) = parse dec n ⟨root, p, p⟩ f := by
  rw [parse, if_neg (by decide), if_neg (by simp)]
  unfold leave
  dsimp only
  rw [List.dropLast_concat, walk_ok hp]
  dsimp only
  rw [if_pos rfl]

theorem limits_eq : kLimits = "Limits".toList := by decide
theorem count_eq : kCountRate = "CountRate".toList := by decide
theorem dead_eq : kDeadTime = "DeadTime".toList := by decide
theorem value_eq : kValue = "value".toList := by decide
theorem index_eq : kIndex = "index".toList := by decide

/-- An entry contributes at most its own name. -/
theorem meaning_keys (t : Tree) (hg : t.Good) : (t.meaning.map Prod.fst).Sublist [t.key] := by
  obtain ⟨raw, name, c, below⟩ := t
  rw [Tree.Good] at hg
  obtain ⟨-, -, -, -, hpl, -, -⟩ := hg
  have hk : ¬ Paged name → (Tree.node raw name c below).key = name := by
    intro hpg
    rw [Tree.key]
    split
    · rw [if_neg hpg]
    · rfl
  rw [Tree.meaning]
  split
  · rename_i hv
    rw [Tree.key, hv]
    exact List.Sublist.refl _
  · split
    · exact List.Sublist.refl _
    · rename_i hpg
      rw [hk hpg]
      split
      · exact List.Sublist.refl _
      · split
        · exact List.nil_sublist _
        · split <;> exact List.Sublist.refl _

mutual
theorem parse_tree {dec : List UInt8 → Option Text} (hdec : Decodes dec) : ∀ (t : Tree) (n : Nat)
    (root d : Items) (p : List Text) (rest : List UInt8), t.Good → dictAt p root = some d →
    t.key ∉ d.map Prod.fst →
    parse dec (n + t.marks) ⟨root, p, p⟩ (t.enc ++ rest) =
      parse dec n ⟨putAt p (d ++ t.meaning) root, p, p⟩ rest
  | .node raw name c below, n, root, d, p, rest, hg, hp, hk => by
    rw [Tree.Good] at hg
    obtain ⟨hname, hcg, hr, hb, hpl, hnd, hbelow⟩ := hg
    have hread := readEntry_ok hdec (below := below) hname hcg hr hb (encAll below ++ [255] ++ rest)
    have henc : (Tree.node raw name c below).enc ++ rest =
        1 :: ((Tree.node raw name c below).head ++ (encAll below ++ [255] ++ rest)) := by
      rw [Tree.enc]
      simp
    rw [henc, show n + (Tree.node raw name c below).marks = (n + 1 + marksAll below) + 1 by
      rw [Tree.marks]; omega]
    -- entering a dictionary
    have into : ∀ (key : Text) (e0 : Items), key ≠ kLimits → key ∉ d.map Prod.fst →
        (e0.map Prod.fst ++ keys below).Nodup →
        parse dec (n + 1 + marksAll below) ⟨putAt p (d ++ [(key, .dict e0)]) root, p ++ [key],
          p ++ [key]⟩ (encAll below ++ [255] ++ rest) =
        parse dec n ⟨putAt p (d ++ [(key, .dict (e0 ++ meanings below))]) root, p, p⟩ rest := by
      intro key e0 _ hkd hkeys
      have h1 : dictAt p (putAt p (d ++ [(key, .dict e0)]) root) = some (d ++ [(key, .dict e0)]) :=
        dictAt_putAt hp
      have h2 : getKw key (d ++ [(key, Node.dict e0)]) = some (.dict e0) := getKw_append hkd
      have h3 := dictAt_snoc h1 h2
      have ih := parse_forest hdec below (n + 1) _ e0 (p ++ [key]) ([255] ++ rest) hbelow h3 hkeys
      rw [List.append_assoc, ih, putAt_snoc h1 h2, setKw_append hkd, putAt_putAt hp]
      exact parse_leave (dictAt_putAt hp) rest
    cases hv : c.value with
    | none =>
      rw [hv] at hread
      have hkey : (Tree.node raw name c below).key = name := by rw [Tree.key, hv]
      rw [hkey] at hk
      have hm : (Tree.node raw name c below).meaning = [(name, .dict (meanings below))] := by
        rw [Tree.meaning, hv]
      have hent : enter ⟨root, p, p⟩ name none =
          .ok ⟨putAt p (d ++ [(name, .dict [])]) root, p ++ [name],
            if name = kLimits then p else p ++ [name]⟩ := by
        unfold enter stored
        dsimp only
        rw [setAt_ok hp, setKw_new hk]
      rw [parse_enter hread hent, hm]
      by_cases hl : name = kLimits
      · have hbe : below = [] := hpl.1 (hl.trans limits_eq)
        subst hbe
        rw [if_pos hl]
        exact parse_leave (dictAt_putAt hp) rest
      · rw [if_neg hl]
        refine into name [] hl hk ?_
        unfold Content.own at hnd
        rw [if_pos (.inl hv)] at hnd
        exact hnd
    | some v =>
      rw [hv, Option.map_some] at hread
      by_cases hpg : Paged name
      · -- pages
        obtain ⟨t, ht⟩ := hpl.2.1 (by rw [hv]; simp) hpg
        have hvt : v = .text t := by rw [hv] at ht; exact Option.some.inj ht
        subst hvt
        have hkey : (Tree.node raw name c below).key = name ++ '_' :: t := by
          rw [Tree.key, hv]; dsimp only; rw [if_pos hpg]
        have hm : (Tree.node raw name c below).meaning =
            [(name ++ '_' :: t, .dict (meanings below))] := by
          rw [Tree.meaning, hv]; dsimp only; rw [if_pos hpg, hkey]
        rw [hkey] at hk
        have hl : name ++ '_' :: t ≠ kLimits := by
          intro e
          have : '_' ∈ kLimits := by rw [← e]; simp
          exact absurd this (by decide)
        have hent : enter ⟨root, p, p⟩ name (some (c.ty, .text t)) =
            .ok ⟨putAt p (d ++ [(name ++ '_' :: t, .dict [])]) root, p ++ [name ++ '_' :: t],
              p ++ [name ++ '_' :: t]⟩ := by
          unfold enter stored
          dsimp only
          rw [if_pos ((isPage_iff _).2 hpg)]
          dsimp only
          rw [setAt_ok hp, setKw_new hk, if_neg hl]
        rw [parse_enter hread hent, hm]
        refine into _ [] hl hk ?_
        unfold Content.own at hnd
        rw [if_pos (.inr hpg)] at hnd
        exact hnd
      · have hipg : ¬ isPage name = true := by rwa [isPage_iff]
        have hkey : (Tree.node raw name c below).key = name := by
          rw [Tree.key]
          split
          · rw [if_neg hpg]
          · rfl
        rw [hkey] at hk
        have hown : c.own name = if name = "CountRate".toList ∨ name = "DeadTime".toList then
            ["value".toList] else if c.ty = 14 then ["index".toList] else [] := by
          unfold Content.own
          rw [if_neg]
          rintro (h | h)
          · rw [hv] at h; cases h
          · exact hpg h
        rw [hown] at hnd
        by_cases hcr : name = "CountRate".toList ∨ name = "DeadTime".toList
        · have hl : name ≠ kLimits := by
            rcases hcr with rfl | rfl <;> decide
          have hm : (Tree.node raw name c below).meaning =
              [(name, .dict ([(kValue, .val v)] ++ meanings below))] := by
            rw [Tree.meaning, hv]; dsimp only; rw [if_neg hpg, if_pos hcr, ← value_eq]; rfl
          have hent : enter ⟨root, p, p⟩ name (some (c.ty, v)) =
              .ok ⟨putAt p (d ++ [(name, .dict [(kValue, .val v)])]) root, p ++ [name],
                p ++ [name]⟩ := by
            unfold enter stored
            dsimp only
            rw [if_neg hipg, count_eq, dead_eq, if_pos hcr]
            dsimp only
            rw [setAt_ok hp, setKw_new hk, if_neg hl]
          rw [parse_enter hread hent, hm]
          refine into name _ hl hk ?_
          rw [if_pos hcr] at hnd
          rw [value_eq]
          exact hnd
        · rw [if_neg hcr] at hnd
          by_cases hl : name = kLimits
          · -- limits
            have hbe : below = [] := hpl.1 (hl.trans limits_eq)
            subst hbe
            have hm : (Tree.node raw name c []).meaning = [] := by
              rw [Tree.meaning, hv]; dsimp only
              rw [if_neg hpg, if_neg hcr, if_pos (hl.trans limits_eq)]
            have hent : enter ⟨root, p, p⟩ name (some (c.ty, v)) = .ok ⟨root, p ++ [name], p⟩ := by
              unfold enter stored
              dsimp only
              rw [if_neg hipg, count_eq, dead_eq, if_neg hcr, if_pos hl]
              dsimp only
              rw [if_pos hl]
            have hself : putAt p (d ++ []) root = root := by
              rw [List.append_nil]
              exact putAt_self hp
            rw [parse_enter hread hent, hm, hself]
            exact parse_leave hp rest
          · have hl' : name ≠ "Limits".toList := by rwa [← limits_eq]
            by_cases h14 : c.ty = 14
            · have hm : (Tree.node raw name c below).meaning =
                  [(name, .dict ([(kIndex, .val v)] ++ meanings below))] := by
                rw [Tree.meaning, hv]; dsimp only
                rw [if_neg hpg, if_neg hcr, if_neg hl', if_pos h14, ← index_eq]; rfl
              have hent : enter ⟨root, p, p⟩ name (some (c.ty, v)) =
                  .ok ⟨putAt p (d ++ [(name, .dict [(kIndex, .val v)])]) root, p ++ [name],
                    p ++ [name]⟩ := by
                unfold enter stored
                dsimp only
                rw [if_neg hipg, count_eq, dead_eq, if_neg hcr, if_neg hl, if_pos h14]
                dsimp only
                rw [setAt_ok hp, setKw_new hk, if_neg hl]
              rw [parse_enter hread hent, hm]
              refine into name _ hl hk ?_
              rw [if_pos h14] at hnd
              rw [index_eq]
              exact hnd
            · have hbe : below = [] := by
                rw [not_or] at hcr
                exact hpl.2.2 (by rw [hv]; simp) hpg hcr.1 hcr.2 h14
              subst hbe
              have hm : (Tree.node raw name c []).meaning = [(name, .val v)] := by
                rw [Tree.meaning, hv]; dsimp only
                rw [if_neg hpg, if_neg hcr, if_neg hl', if_neg h14]
              have hent : enter ⟨root, p, p⟩ name (some (c.ty, v)) =
                  .ok ⟨putAt p (d ++ [(name, .val v)]) root, p ++ [name], p ++ [name]⟩ := by
                unfold enter stored
                dsimp only
                rw [if_neg hipg, count_eq, dead_eq, if_neg hcr, if_neg hl, if_neg h14]
                dsimp only
                rw [setAt_ok hp, setKw_new hk, if_neg hl]
              rw [parse_enter hread hent, hm]
              exact parse_leave (dictAt_putAt hp) rest
theorem parse_forest {dec : List UInt8 → Option Text} (hdec : Decodes dec) : ∀ (ts : List Tree)
    (n : Nat) (root d : Items) (p : List Text) (rest : List UInt8), AllGood ts →
    dictAt p root = some d → (d.map Prod.fst ++ keys ts).Nodup →
    parse dec (n + marksAll ts) ⟨root, p, p⟩ (encAll ts ++ rest) =
      parse dec n ⟨putAt p (d ++ meanings ts) root, p, p⟩ rest
  | [], n, root, d, p, rest, _, hp, _ => by
    have : putAt p (d ++ meanings []) root = root := by
      rw [meanings, List.append_nil]; exact putAt_self hp
    rw [this]
    rfl
  | t :: ts, n, root, d, p, rest, hg, hp, hnd => by
    rw [AllGood] at hg
    rw [keys] at hnd
    have hk : t.key ∉ d.map Prod.fst := by
      intro hm
      exact (List.nodup_append.1 hnd).2.2 _ hm _ (List.mem_cons_self ..) rfl
    have hnd' : ((d ++ t.meaning).map Prod.fst ++ keys ts).Nodup := by
      rw [List.map_append, List.append_assoc]
      refine hnd.sublist (List.Sublist.append_left ?_ _)
      have hs : (t.meaning.map Prod.fst).Sublist [t.key] := meaning_keys t hg.1
      have := hs.append_right (keys ts)
      simpa using this
    rw [encAll, List.append_assoc, marksAll, show n + (t.marks + marksAll ts) =
      (n + marksAll ts) + t.marks by omega, parse_tree hdec t _ root d p _ hg.1 hp hk,
      parse_forest hdec ts n _ (d ++ t.meaning) p rest hg.2 (dictAt_putAt hp) hnd', putAt_putAt hp,
      List.append_assoc]
    rfl
end

end Verif.JeolTree
