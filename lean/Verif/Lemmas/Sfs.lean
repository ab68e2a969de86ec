import Verif.Spec.Sfs
import Mathlib.Data.List.TakeDrop
namespace Verif.Sfs

/-! ### Reading bytes -/

theorem readAt_has {F bs : List UInt8} {pos : Nat} (h : Has F pos bs) (k n : Nat) (hkn : k + n ≤ bs.length) :
    readAt F (pos + k) n = (bs.drop k).take n := by
  obtain ⟨post, h⟩ := h
  unfold readAt
  rw [← List.drop_drop, h, List.drop_append_of_le_length (by omega),
    List.take_append_of_le_length (by rw [List.length_drop]; omega)]

theorem readAt_all {F bs : List UInt8} {pos : Nat} (h : Has F pos bs) : readAt F pos bs.length = bs := by
  have := readAt_has h 0 bs.length (by omega)
  simpa using this

theorem readAt_prefix {F bs : List UInt8} {pos n : Nat} (h : Has F pos bs) (hn : bs.length ≤ n) :
    ∃ junk, readAt F pos n = bs ++ junk := by
  obtain ⟨post, h⟩ := h
  unfold readAt
  rw [h]
  exact ⟨post.take (n - bs.length), by rw [List.take_append, List.take_of_length_le hn]⟩

theorem lt_ceilDiv {n u : Nat} (hu : 0 < u) (i : Nat) : i < ceilDiv n u ↔ i * u < n := by
  unfold ceilDiv
  rw [← Nat.succ_le_iff, Nat.le_div_iff_mul_le hu, Nat.succ_mul]
  omega

theorem ceilDiv_eq {n u m : Nat} (hu : 0 < u) (h : ∀ i, i < m ↔ i * u < n) : ceilDiv n u = m := by
  apply Nat.le_antisymm
  · apply Nat.le_of_not_lt
    intro hlt
    exact absurd ((h m).2 ((lt_ceilDiv hu m).1 hlt)) (Nat.lt_irrefl _)
  · apply Nat.le_of_not_lt
    intro hlt
    exact absurd ((lt_ceilDiv hu _).2 ((h _).1 hlt)) (Nat.lt_irrefl _)

/-! ### Files -/

section File
variable {F : List UInt8} {c : Nat} {cs : List Nat} {content : List UInt8}

def ptrsOf (c : Nat) (cs : List Nat) : List Nat := cs.map fun k => k * c + 0x138

theorem stored_get (h : Stored F c cs content) {i : Nat} (hi : i * (c - 32) < content.length) :
    ∃ p, (ptrsOf c cs)[i]? = some p ∧ ∀ k n, k + n ≤ c - 32 → i * (c - 32) + k + n ≤ content.length →
      readAt F (p + k) n = (content.drop (i * (c - 32) + k)).take n := by
  obtain ⟨k, hk, hh⟩ := h.1 i hi
  refine ⟨k * c + 0x138, by unfold ptrsOf; rw [List.getElem?_map, hk]; rfl, ?_⟩
  intro o n h1 h2
  rw [Nat.mul_comm k c, readAt_has hh o n (by rw [List.length_take, List.length_drop]; omega),
    List.drop_take, List.drop_drop, List.take_take, Nat.min_eq_left (by omega)]

theorem stored_length (h : Stored F c cs content) (i : Nat) : i < cs.length ↔ i * (c - 32) < content.length := by
  constructor
  · intro hi
    apply Nat.lt_of_not_le
    intro hle
    have := h.2 i hle
    rw [List.getElem?_eq_none_iff] at this
    omega
  · intro hi
    obtain ⟨k, hk, -⟩ := h.1 i hi
    exact (List.getElem?_eq_some_iff.1 hk).1

theorem stored_count (hc : 32 < c) (h : Stored F c cs content) : ceilDiv content.length (usable c) = cs.length :=
  ceilDiv_eq (by unfold usable; omega) (stored_length h)

theorem stored_mid (h : Stored F c cs content) : ∀ m a : Nat, (a + m) * (c - 32) ≤ content.length →
    (((ptrsOf c cs).take (a + m)).drop a).flatMap (fun q => readAt F q (c - 32)) =
      (content.drop (a * (c - 32))).take (m * (c - 32))
  | 0, a, _ => by
    rw [Nat.add_zero, List.drop_of_length_le (by rw [List.length_take]; omega), Nat.zero_mul, List.take_zero]
    rfl
  | m + 1, a, hm => by
    by_cases hu : c - 32 = 0
    · simp only [hu, Nat.mul_zero, List.take_zero, readAt]
      rw [List.flatMap_eq_nil_iff]
      intro _ _
      rfl
    have hlt : a * (c - 32) < content.length := by
      refine Nat.lt_of_lt_of_le ?_ hm
      exact Nat.mul_lt_mul_of_pos_right (by omega) (by omega)
    obtain ⟨p, hp, hr⟩ := stored_get h hlt
    obtain ⟨hal, hpe⟩ := List.getElem?_eq_some_iff.1 hp
    have e1 : ((ptrsOf c cs).take (a + (m + 1))).drop a = p :: ((ptrsOf c cs).take (a + 1 + m)).drop (a + 1) := by
      rw [List.drop_eq_getElem_cons (by rw [List.length_take]; omega)]
      rw [List.getElem_take, hpe, show a + (m + 1) = a + 1 + m by omega]
    have e2 : (m + 1) * (c - 32) = (c - 32) + m * (c - 32) := by ring
    have e3 : (a + (m + 1)) * (c - 32) = a * (c - 32) + (c - 32) + m * (c - 32) := by ring
    have e4 : (a + 1) * (c - 32) = a * (c - 32) + (c - 32) := by ring
    have h0 := hr 0 (c - 32) (by omega) (by omega)
    rw [Nat.add_zero, Nat.add_zero] at h0
    rw [e1, List.flatMap_cons, h0, stored_mid h m (a + 1) (by rw [show a + 1 + m = a + (m + 1) by omega]; exact hm),
      e2, List.take_add, List.drop_drop, e4]

theorem readPiece_ok (hc : 32 < c) (h : Stored F c cs content) {offset length : Nat}
    (h1 : offset + length ≤ content.length) (h2 : offset < content.length) :
    readPiece F c (ptrsOf c cs) offset length = .ok ((content.drop offset).take length) := by
  have hu : 0 < c - 32 := by omega
  unfold readPiece usable
  dsimp only
  generalize hU : c - 32 = u at *
  have d1 := Nat.div_add_mod offset u
  have d2 := Nat.div_add_mod (offset + length) u
  have m1 := Nat.mod_lt offset hu
  have m2 := Nat.mod_lt (offset + length) hu
  generalize hfb : offset / u = fb at *
  generalize hfbo : offset % u = fbo at *
  generalize hlb : (offset + length) / u = lb at *
  generalize hlbco : (offset + length) % u = lbco at *
  have c1 : u * fb = fb * u := Nat.mul_comm ..
  have c2 : u * lb = lb * u := Nat.mul_comm ..
  have hle : fb ≤ lb := by rw [← hfb, ← hlb]; exact Nat.div_le_div_right (by omega)
  obtain ⟨p, hp, hr⟩ := stored_get h (i := fb) (by rw [hU]; omega)
  rw [hU] at hr
  rw [hp]
  dsimp only
  by_cases he : fb = lb
  · rw [if_neg (by simpa using he), hr fbo length (by subst he; omega) (by omega)]
    congr 3
    omega
  · rw [if_pos he]
    obtain ⟨m, hm⟩ : ∃ m, lb = fb + 1 + m := ⟨lb - (fb + 1), by omega⟩
    have e3 : lb * u = fb * u + u + m * u := by rw [hm]; ring
    have e4 : (fb + 1) * u = fb * u + u := by ring
    have hmid := stored_mid h m (fb + 1) (by rw [hU, ← hm]; omega)
    rw [hU, ← hm] at hmid
    rw [hmid, hr fbo (u - fbo) (by omega) (by omega)]
    have key : (content.drop offset).take length = (content.drop (fb * u + fbo)).take (u - fbo) ++
        (content.drop ((fb + 1) * u)).take (m * u) ++ (content.drop (lb * u)).take lbco := by
      rw [show length = (u - fbo) + m * u + lbco by omega, List.take_add, List.take_add, List.drop_drop,
        List.drop_drop, show offset = fb * u + fbo by omega,
        show fb * u + fbo + (u - fbo) = (fb + 1) * u by omega,
        show fb * u + fbo + (u - fbo + m * u) = lb * u by omega]
    by_cases hl : 0 < lbco
    · rw [if_pos hl]
      obtain ⟨q, hq, hr'⟩ := stored_get h (i := lb) (by rw [hU]; omega)
      rw [hU] at hr'
      have := hr' 0 lbco (by omega) (by omega)
      rw [Nat.add_zero, Nat.add_zero] at this
      rw [hq]
      dsimp only
      rw [this, key]
    · rw [if_neg hl, key, show lbco = 0 by omega, List.take_zero, List.append_nil]

theorem pyGet_nat {α : Type} {l : List α} {i : Nat} {x : α} (h : l[i]? = some x) : pyGet l (i : Int) = .ok x := by
  unfold pyGet
  rw [if_pos (by omega), Int.toNat_natCast, h]

theorem readChunks_ok (hc : 32 < c) (h : Stored F c cs content) (hne : content ≠ []) {it : Item}
    (hp : it.pointers = ptrsOf c cs) (hs : it.size = content.length) :
    ∃ chunks, readChunks F c it = .ok chunks ∧ chunks.flatten = content ∧ Full (c - 32) chunks ∧
      chunks.length = cs.length := by
  have hpos : 0 < content.length := List.length_pos_iff.2 hne
  have hu : 0 < c - 32 := by omega
  have hcs : 0 < cs.length := (stored_length h 0).2 (by omega)
  have hpl : (ptrsOf c cs).length = cs.length := by unfold ptrsOf; simp
  obtain ⟨m, hm⟩ : ∃ m, cs.length = m + 1 := ⟨cs.length - 1, by omega⟩
  have hmlt : m * (c - 32) < content.length := (stored_length h m).1 (by omega)
  have hmge : content.length ≤ (m + 1) * (c - 32) := by
    apply Nat.le_of_not_lt
    intro hlt
    have := (stored_length h (m + 1)).2 hlt
    omega
  have em : (m + 1) * (c - 32) = m * (c - 32) + (c - 32) := by ring
  obtain ⟨p, hpp, hr⟩ := stored_get h hmlt
  unfold readChunks
  dsimp only
  rw [hp, hs, stored_count hc h, hm]
  rw [if_neg (by rw [hpl]; omega), show ((m + 1 : Nat) : Int) - 1 = (m : Int) by push_cast; ring, pyGet_nat hpp]
  dsimp only
  unfold usable
  have hfront : ∀ b ∈ ((ptrsOf c cs).take (m + 1 - 1)).map (fun q => readAt F q (c - 32)), b.length = c - 32 := by
    intro b hb
    obtain ⟨q, hq, rfl⟩ := List.mem_map.1 hb
    obtain ⟨j, hj, rfl⟩ := List.mem_iff_getElem.1 hq
    rw [List.length_take] at hj
    have hjm : j < m := by omega
    have hjlt : (j + 1) * (c - 32) ≤ m * (c - 32) := Nat.mul_le_mul_right _ (by omega)
    have ej : (j + 1) * (c - 32) = j * (c - 32) + (c - 32) := by ring
    obtain ⟨p', hp', hr'⟩ := stored_get h (i := j) (by omega)
    have := hr' 0 (c - 32) (by omega) (by omega)
    rw [Nat.add_zero] at this
    have e : ((ptrsOf c cs).take (m + 1 - 1))[j] = p' := by
      rw [List.getElem_take]
      exact (List.getElem?_eq_some_iff.1 hp').2
    rw [e, this, List.length_take, List.length_drop]
    omega
  have hlast : (if content.length % (c - 32) ≠ 0 then readAt F p (content.length % (c - 32))
      else readAt F p (c - 32)) = content.drop (m * (c - 32)) := by
    have d := Nat.div_add_mod content.length (c - 32)
    have hml := Nat.mod_lt content.length hu
    by_cases h0 : content.length % (c - 32) = 0
    · rw [if_neg (by simpa using h0)]
      have : content.length = m * (c - 32) + (c - 32) := by
        obtain ⟨t, ht⟩ := Nat.dvd_of_mod_eq_zero h0
        have h1 : m < t := by
          apply Nat.lt_of_mul_lt_mul_right (a := c - 32)
          rw [Nat.mul_comm t]; omega
        have h2 : t ≤ m + 1 := by
          apply Nat.le_of_mul_le_mul_right (c := c - 32) _ hu
          rw [Nat.mul_comm t]; omega
        have : t = m + 1 := by omega
        rw [ht, this]; ring
      have h1 := hr 0 (c - 32) (by omega) (by omega)
      rw [Nat.add_zero, Nat.add_zero] at h1
      rw [h1, List.take_of_length_le (by rw [List.length_drop]; omega)]
    · rw [if_pos h0]
      have hq : content.length / (c - 32) = m := by
        apply Nat.div_eq_of_lt_le
        · omega
        · have : content.length ≠ (m + 1) * (c - 32) := by
            intro e
            rw [e] at h0
            exact h0 (Nat.mul_mod_left ..)
          omega
      rw [hq, Nat.mul_comm] at d
      have h1 := hr 0 (content.length % (c - 32)) (by omega) (by omega)
      rw [Nat.add_zero, Nat.add_zero] at h1
      rw [h1, List.take_of_length_le (by rw [List.length_drop]; omega)]
  rw [hlast]
  refine ⟨_, rfl, ?_, ⟨?_, ?_⟩, ?_⟩
  · rw [List.flatten_append, ← List.flatMap_def]
    have := stored_mid h m 0 (by rw [Nat.zero_add]; omega)
    rw [Nat.zero_add, List.drop_zero, Nat.zero_mul, List.drop_zero] at this
    rw [Nat.add_sub_cancel, this]
    simp
  · rw [List.dropLast_concat]
    exact hfront
  · intro b hb
    rw [List.getLast?_concat] at hb
    obtain rfl := Option.some.inj hb
    refine ⟨by rw [List.length_drop]; omega, ?_⟩
    intro e
    have := congrArg List.length e
    rw [List.length_drop, List.length_nil] at this
    omega
  · simp [hpl, hm]

end File

/-! ### Linked chunks -/

theorem linked_ok {F : List UInt8} {c w : Nat} : ∀ {blocks : List (List UInt8)} {a : Nat}, Linked F c a blocks →
    Full w blocks → (0 < w) → (blocks ≠ [[]]) →
    ∃ junk, linked F c w blocks.length a = .ok (blocks.flatten ++ junk) := by
  intro blocks a h
  induction h with
  | last a bs hb =>
    intro hf hw hne
    obtain ⟨h1, h2⟩ := hf.2 bs rfl
    have hbs : bs ≠ [] := by rintro rfl; exact hne rfl
    obtain ⟨junk, hj⟩ := readAt_prefix hb h1
    have hlen : 4 ≤ (readAt F (c * a + 0x118) 4).length := by
      obtain ⟨post, hp⟩ := hb
      have := congrArg List.length hp
      rw [List.length_drop, List.length_append] at this
      have hpos := List.length_pos_iff.2 hbs
      unfold readAt
      rw [List.length_take, List.length_drop]
      omega
    refine ⟨junk, ?_⟩
    show linked F c w 1 a = _
    unfold linked
    dsimp only
    rw [if_neg (by omega)]
    unfold linked
    dsimp only
    rw [hj]
    simp
  | more a b bs rest hb hblt hh hl ih =>
    intro hf hw hne
    have hrest : rest ≠ [] := by
      intro e
      subst e
      cases hl
    have hd : (bs :: rest).dropLast = bs :: rest.dropLast := List.dropLast_cons_of_ne_nil hrest
    have hbl : bs.length = w := hf.1 bs (by rw [hd]; exact List.mem_cons_self ..)
    have hf' : Full w rest := by
      refine ⟨fun x hx => hf.1 x (by rw [hd]; exact List.mem_cons_of_mem _ hx), ?_⟩
      intro x hx
      obtain ⟨h1, h2⟩ := hf.2 x (by rw [List.getLast?_cons, hx]; rfl)
      refine ⟨h1, ?_⟩
      intro e
      have := h2 e
      rw [List.length_cons] at this
      exact absurd (List.length_eq_zero_iff.1 (by omega)) hrest
    have hne' : rest ≠ [[]] := by
      rintro rfl
      have := (hf.2 [] rfl).2 rfl
      simp at this
    obtain ⟨junk, hj⟩ := ih hf' hw hne'
    have h4 : readAt F (c * a + 0x118) 4 = leBytes 4 b := by
      have := readAt_all hh
      rwa [leBytes_length] at this
    refine ⟨junk, ?_⟩
    rw [List.length_cons]
    unfold linked
    dsimp only
    rw [h4, if_neg (by rw [leBytes_length]; omega), leVal_leBytes (by simpa using hblt), hj]
    dsimp only
    rw [← hbl, readAt_all hb]
    simp

theorem full_length {w : Nat} (hw : 0 < w) : ∀ {blocks : List (List UInt8)}, Full w blocks →
    blocks ≠ [] → blocks ≠ [[]] → ∀ i, i < blocks.length ↔ i * w < blocks.flatten.length
  | [], _, h, _ => absurd rfl h
  | [b], hf, _, hne => by
    obtain ⟨h1, -⟩ := hf.2 b rfl
    have hb : 0 < b.length := List.length_pos_iff.2 (by rintro rfl; exact hne rfl)
    intro i
    simp only [List.length_cons, List.length_nil, List.flatten_cons, List.flatten_nil, List.append_nil]
    constructor
    · intro hi
      have : i = 0 := by omega
      subst this
      omega
    · intro hi
      apply Nat.lt_of_not_le
      intro hle
      have : 1 * w ≤ i * w := Nat.mul_le_mul_right _ (by omega)
      omega
  | b :: b' :: bs, hf, _, _ => by
    have hd : (b :: b' :: bs).dropLast = b :: (b' :: bs).dropLast := rfl
    have hbl : b.length = w := hf.1 b (by rw [hd]; exact List.mem_cons_self ..)
    have hf' : Full w (b' :: bs) := by
      refine ⟨fun x hx => hf.1 x (by rw [hd]; exact List.mem_cons_of_mem _ hx), ?_⟩
      intro x hx
      obtain ⟨h1, h2⟩ := hf.2 x (by rw [List.getLast?_cons, hx]; rfl)
      refine ⟨h1, ?_⟩
      intro e
      have := h2 e
      simp at this
    have hne' : b' :: bs ≠ [[]] := by
      intro e
      have hl : (b :: b' :: bs).getLast? = some [] := by rw [e]; rfl
      have := (hf.2 [] hl).2 rfl
      simp at this
    have ih := full_length hw hf' (by simp) hne'
    intro i
    rw [List.flatten_cons, List.length_append, List.length_cons, hbl]
    cases i with
    | zero => simp only [Nat.zero_mul]; omega
    | succ j =>
      have := ih j
      rw [Nat.succ_mul]
      omega

theorem flatMap_leBytes_length (w : Nat) : ∀ ns : List Nat, (ns.flatMap (leBytes w)).length = w * ns.length
  | [] => by simp
  | n :: ns => by
    rw [List.flatMap_cons, List.length_append, flatMap_leBytes_length w ns, leBytes_length, List.length_cons]
    ring

theorem words_ok : ∀ {ws : List Nat}, (∀ k ∈ ws, k < 2 ^ 32) → words (ws.flatMap (leBytes 4)) = .ok ws
  | [], _ => rfl
  | w :: ws, h => by
    have ih := words_ok fun k hk => h k (List.mem_cons_of_mem _ hk)
    have hw : leVal (leBytes 4 w) = w := leVal_leBytes (by simpa using h w (List.mem_cons_self ..))
    rw [List.flatMap_cons]
    obtain ⟨a, b, c, d, e⟩ : ∃ a b c d, leBytes 4 w = [a, b, c, d] := ⟨_, _, _, _, rfl⟩
    rw [e] at hw ⊢
    simp only [List.cons_append, List.nil_append, words, ih, hw]

theorem fillTable_ok {F : List UInt8} {c addr : Nat} {content : List UInt8} (hc : 36 ≤ c) (h4 : c % 4 = 0)
    (h : FileAt F c addr content) :
    ∃ cs, Stored F c cs content ∧ fillTable F c (addr : Int) content.length = .ok (ptrsOf c cs) := by
  obtain ⟨cs, blocks, hs, hk, hl, hf, hb⟩ := h
  refine ⟨cs, hs, ?_⟩
  have hw : (c - 32) / 4 * 4 = c - 32 := by omega
  have hwp : 0 < c - 32 := by omega
  rw [hw] at hf
  have hlen : blocks.flatten.length = 4 * cs.length := by rw [hb, flatMap_leBytes_length]
  unfold fillTable
  dsimp only
  rw [if_neg (by omega), Int.toNat_natCast, stored_count (by omega) hs]
  have htab : ∀ t junk, t = blocks.flatten ++ junk → t.take (cs.length * 4) = cs.flatMap (leBytes 4) := by
    rintro t junk rfl
    rw [List.take_append_of_le_length (by omega), List.take_of_length_le (by omega), hb]
  have hbn : blocks ≠ [] := by rintro rfl; cases hl
  by_cases hone : blocks.length = 1
  · obtain ⟨b, rfl⟩ := List.length_eq_one_iff.1 hone
    have hn : ¬ 1 < ceilDiv cs.length (usable c / 4) := by
      rw [lt_ceilDiv (by unfold usable; omega)]
      have := (hf.2 b rfl).1
      simp only [List.flatten_cons, List.flatten_nil, List.append_nil] at hlen
      unfold usable
      omega
    rw [if_neg hn]
    dsimp only
    have hread : ∃ junk, readAt F (c * addr + 0x138) (usable c) = b ++ junk := by
      cases hl with
      | last a bs hbb => exact readAt_prefix hbb (hf.2 b rfl).1
      | more a b' bs rest hbb _ _ hr => exact readAt_prefix hbb (hf.2 b rfl).1
    obtain ⟨junk, hj⟩ := hread
    rw [htab _ junk (by rw [hj]; simp), words_ok hk]
    rfl
  · have hne : blocks ≠ [[]] := by rintro rfl; exact hone rfl
    have hfl := full_length hwp hf hbn hne
    have hcount : ceilDiv cs.length (usable c / 4) = blocks.length := by
      refine ceilDiv_eq (by unfold usable; omega) ?_
      intro i
      rw [hfl i, hlen]
      unfold usable
      have : i * (c - 32) = 4 * (i * ((c - 32) / 4)) := by
        conv_lhs => rw [← hw]
        ring
      omega
    have h1 : 1 < blocks.length := by
      have := List.length_pos_iff.2 hbn
      omega
    rw [hcount, if_pos h1]
    obtain ⟨junk, hj⟩ := linked_ok hl hf hwp hne
    unfold usable
    rw [hj]
    dsimp only
    rw [htab _ junk rfl, words_ok hk]
    rfl

/-! ### Compressed files -/

theorem readBlocks_ok {unzip : List UInt8 → Py (List UInt8)} {F : List UInt8} {c : Nat} {cs : List Nat}
    {content : List UInt8} (hc : 32 < c) (h : Stored F c cs content) {bs : List UInt8}
    {plain : List (List UInt8)} (hz : Zipped unzip bs plain) : ∀ {offset : Nat},
    content.drop offset = bs → readBlocks unzip F c (ptrsOf c cs) plain.length offset = .ok plain := by
  induction hz with
  | nil => intro offset _; rfl
  | cons head raw rest p ps h12 hraw hne hun hz ih =>
    intro offset hd
    have hlen := congrArg List.length hd
    simp only [List.length_drop, List.length_append, leBytes_length] at hlen
    have hpos := List.length_pos_iff.2 hne
    have d16 : content.drop (offset + 16) = raw ++ rest := by
      rw [← List.drop_drop, hd, List.append_assoc, List.append_assoc, ← List.append_assoc,
        List.drop_left' (by simp [h12])]
    have dr : content.drop (offset + 16 + raw.length) = rest := by
      rw [← List.drop_drop, d16, List.drop_left' rfl]
    have e1 : readPiece F c (ptrsOf c cs) offset 16 = .ok (leBytes 4 raw.length ++ head) := by
      rw [readPiece_ok hc h (by omega) (by omega), hd, List.append_assoc, List.append_assoc,
        ← List.append_assoc, List.take_left' (by simp [h12])]
    have e2 : readPiece F c (ptrsOf c cs) (offset + 16) raw.length = .ok raw := by
      rw [readPiece_ok hc h (by omega) (by omega), d16, List.take_left' rfl]
    rw [List.length_cons, readBlocks, e1]
    dsimp only
    rw [if_neg (by simp [h12]), List.take_left' (by simp), leVal_leBytes (by simpa using hraw), e2]
    dsimp only
    rw [hun]
    dsimp only
    rw [ih dr]

/-! ### Records -/

def parentInt : Option Nat → Int
  | none => -1
  | some p => p

/-- What the reader knows about an entry. -/
def ItemOf (F : List UInt8) (c : Nat) (e : Entry) (it : Item) : Prop :=
  it.name = e.name ∧ it.isDir = e.isDir ∧
  it.parent = parentInt e.parent ∧
  it.size = e.content.length ∧
  (e.isDir = false → ∃ cs, Stored F c cs e.content ∧ it.pointers = ptrsOf c cs)

theorem dropWhile_replicate (n : Nat) (l : List UInt8) :
    (List.replicate n (0 : UInt8) ++ l).dropWhile (fun x => decide (x = 0)) =
      l.dropWhile (fun x => decide (x = 0)) := by
  induction n with
  | zero => rfl
  | succ n ih => rw [List.replicate_succ, List.cons_append, List.dropWhile_cons_of_pos (by simp), ih]

theorem dropWhile_nonzero {l : List UInt8} (h : (0 : UInt8) ∉ l) : l.dropWhile (fun x => decide (x = 0)) = l := by
  cases l with
  | nil => rfl
  | cons a t =>
    rw [List.dropWhile_cons_of_neg]
    intro e
    exact h (by rw [of_decide_eq_true e]; exact List.mem_cons_self ..)

theorem stripNul_ok {bs : List UInt8} (h : (0 : UInt8) ∉ bs) (n : Nat) :
    stripNul (bs ++ List.replicate n 0) = bs := by
  unfold stripNul
  cases bs with
  | nil =>
    rw [List.nil_append, ← List.append_nil (List.replicate n (0 : UInt8)), dropWhile_replicate]
    rfl
  | cons a t =>
    have ha : a ≠ 0 := by rintro rfl; exact h (List.mem_cons_self ..)
    rw [List.cons_append, List.dropWhile_cons_of_neg (by simpa using ha), ← List.cons_append,
      List.reverse_append, List.reverse_replicate, dropWhile_replicate,
      dropWhile_nonzero (by rwa [List.mem_reverse]), List.reverse_reverse]

/-- A field of a record. -/
theorem field {a b f : List UInt8} {k n : Nat} (ha : a.length = k) (hf : f.length = n) :
    ((a ++ f ++ b).drop k).take n = f := by
  rw [List.append_assoc, List.drop_left' ha, List.take_left' hf]

theorem toSigned_small {n : Nat} (h : n < 2 ^ 31) : toSigned 4 n = n := by
  unfold toSigned
  rw [if_pos]
  have : 256 ^ 4 = 2 * 2 ^ 31 := by decide
  omega

theorem item_ok {enc : Text → List UInt8} {dec : List UInt8 → Option Text} {F : List UInt8} {c : Nat}
    {r : List UInt8} {e : Entry} (hc : 36 ≤ c) (h4 : c % 4 = 0) (hr : Record enc F c r e)
    (hd : dec (enc e.name) = some e.name) (h0 : (0 : UInt8) ∉ enc e.name) :
    r.length = 512 ∧ ∃ it, item dec F c r = .ok it ∧ ItemOf F c e it := by
  obtain ⟨addr, times, u1, u2, u3, flag, ht, h1, h2, h3, haddr, hsize, hname, hpar, hflag, hrr, hfile⟩ := hr
  generalize hP : parentBytes e.parent = P at hrr
  have hPl : P.length = 4 := by
    rw [← hP]; cases e.parent <;> simp [parentBytes]
  have hl4 : (leBytes 4 addr).length = 4 := by simp
  have hl8 : (leBytes 8 e.content.length).length = 8 := by simp
  have hN : (enc e.name ++ List.replicate (256 - (enc e.name).length) (0 : UInt8)).length = 256 := by
    rw [List.length_append, List.length_replicate]; omega
  have hlen : r.length = 512 := by
    rw [hrr]
    simp only [List.length_append, leBytes_length, hPl, ht, h1, h2, h3, List.length_replicate,
      List.length_cons, List.length_nil]
    omega
  have f0 : r.take 4 = leBytes 4 addr := by
    rw [hrr]; simp only [List.append_assoc]; rw [List.take_left' hl4]
  have f1 : (r.drop 4).take 8 = leBytes 8 e.content.length := by
    rw [hrr]; simp only [List.append_assoc]; rw [List.drop_left' hl4, List.take_left' hl8]
  have f2 : (r.drop 40).take 4 = P := by
    have : r = (leBytes 4 addr ++ leBytes 8 e.content.length ++ times) ++ P ++ (u1 ++ ([flag] ++
        (u2 ++ (enc e.name ++ (List.replicate (256 - (enc e.name).length) 0 ++ u3))))) := by
      rw [hrr]; simp only [List.append_assoc]
    rw [this]
    exact field (by simp [ht]) hPl
  have f3 : (r.drop 220).take 1 = [flag] := by
    have : r = (leBytes 4 addr ++ leBytes 8 e.content.length ++ times ++ P ++ u1) ++ [flag] ++
        (u2 ++ (enc e.name ++ (List.replicate (256 - (enc e.name).length) 0 ++ u3))) := by
      rw [hrr]; simp only [List.append_assoc]
    rw [this]
    exact field (by simp [ht, hPl, h1]) rfl
  have f4 : (r.drop 224).take 256 = enc e.name ++ List.replicate (256 - (enc e.name).length) 0 := by
    have : r = (leBytes 4 addr ++ leBytes 8 e.content.length ++ times ++ P ++ u1 ++ [flag] ++ u2) ++
        (enc e.name ++ List.replicate (256 - (enc e.name).length) 0) ++ u3 := by
      rw [hrr]; simp only [List.append_assoc]
    rw [this]
    exact field (by simp [ht, hPl, h1, h2]) hN
  refine ⟨hlen, ?_⟩
  have hparent : toSigned 4 (leVal P) = parentInt e.parent := by
    rw [← hP]
    cases hp : e.parent with
    | none => decide
    | some p =>
      have := hpar p hp
      rw [parentBytes, parentInt, leVal_leBytes (Nat.lt_trans this (by decide)), toSigned_small this]
  unfold item
  rw [if_neg (by simpa using hlen)]
  dsimp only
  rw [f0, f1, f2, f3, f4, stripNul_ok h0, hd, leVal_leBytes (Nat.lt_trans haddr (by decide)),
    leVal_leBytes (by simpa using hsize), toSigned_small haddr, hparent]
  dsimp only
  by_cases hdir : e.isDir = true
  · have hfl : flag ≠ 0 := hflag.2 hdir
    rw [if_pos (by simpa using hfl)]
    refine ⟨_, rfl, rfl, hdir.symm, rfl, rfl, ?_⟩
    intro h
    rw [hdir] at h
    cases h
  · have hfl : flag = 0 := by
      by_contra hne
      exact hdir (hflag.1 hne)
    have hdf : e.isDir = false := by simpa using hdir
    obtain ⟨cs, hs, hft⟩ := fillTable_ok hc h4 (hfile hdf)
    rw [if_neg (by simp [hfl]), hft]
    exact ⟨_, rfl, rfl, hdf.symm, rfl, rfl, fun _ => ⟨cs, hs, rfl⟩⟩

theorem itemsOf_ok {enc : Text → List UInt8} {dec : List UInt8 → Option Text} {F : List UInt8} {c : Nat}
    (hc : 36 ≤ c) (h4 : c % 4 = 0) {rs : List UInt8} {es : List Entry} (h : Records enc F c rs es) :
    (∀ e ∈ es, dec (enc e.name) = some e.name ∧ (0 : UInt8) ∉ enc e.name) →
    rs.length = es.length * 512 ∧ ∃ its, itemsOf dec F c es.length rs = .ok its ∧
      List.Forall₂ (ItemOf F c) es its := by
  induction h with
  | nil => intro _; exact ⟨rfl, [], rfl, .nil⟩
  | cons r rs e es hr _ ih =>
    intro hn
    obtain ⟨hd, h0⟩ := hn e (List.mem_cons_self ..)
    obtain ⟨hl, it, hit, hio⟩ := item_ok hc h4 hr hd h0
    obtain ⟨hl', its, hits, hall⟩ := ih fun x hx => hn x (List.mem_cons_of_mem _ hx)
    refine ⟨by rw [List.length_append, List.length_cons, hl, hl']; ring, it :: its, ?_, .cons hio hall⟩
    rw [List.length_cons, itemsOf, List.take_left' hl, hit]
    dsimp only
    rw [List.drop_left' hl, hits]

theorem rawTree_ok {F : List UInt8} {c addr n : Nat} {blocks : List (List UInt8)} (hc : 544 ≤ c)
    (hl : Linked F c addr blocks) (hf : Full ((c - 32) / 512 * 512) blocks)
    (hn : blocks.flatten.length = n * 512) (hpos : 0 < n)
    (hfit : (blocks.length - 1) * (c - 32) < n * 512) :
    rawTree F c addr n = .ok blocks.flatten := by
  have hw : 0 < (c - 32) / 512 * 512 := by omega
  have hle : (c - 32) / 512 * 512 ≤ c - 32 := Nat.div_mul_le_self ..
  have hbn : blocks ≠ [] := by rintro rfl; cases hl
  have hne : blocks ≠ [[]] := by rintro rfl; simp at hn; omega
  have hcount : ceilDiv (n * 512) (c - 32) = blocks.length := by
    refine ceilDiv_eq (by omega) ?_
    intro i
    constructor
    · intro hi
      have : i * (c - 32) ≤ (blocks.length - 1) * (c - 32) := Nat.mul_le_mul_right _ (by omega)
      omega
    · intro hi
      rw [full_length hw hf hbn hne i, hn]
      have : i * ((c - 32) / 512 * 512) ≤ i * (c - 32) := Nat.mul_le_mul_left _ hle
      omega
  unfold rawTree
  dsimp only
  rw [hcount]
  by_cases h1 : blocks.length = 1
  · rw [if_pos h1]
    obtain ⟨b, rfl⟩ := List.length_eq_one_iff.1 h1
    simp only [List.flatten_cons, List.flatten_nil, List.append_nil] at hn ⊢
    have hb : Has F (c * addr + 0x138) b := by
      cases hl with
      | last _ _ hb => exact hb
      | more _ _ _ _ hb _ _ _ => exact hb
    rw [Nat.mul_comm 512, ← hn, readAt_all hb]
  · rw [if_neg h1]
    obtain ⟨junk, hj⟩ := linked_ok hl hf hw hne
    rw [hj]
    dsimp only
    rw [← hn, List.take_left' rfl]

end Verif.Sfs
