import Verif.Lemmas.Hypermap
/-! Lemmas about the decoders of Bruker maps: packed spectra. -/
namespace Verif.Hypermap
open Verif

theorem num_zero {a R : List UInt8} {w : Nat} (h : a.length = w) : num (a ++ R) 0 w = .ok (leVal a) := by
  unfold num
  dsimp only
  rw [List.drop_zero, List.take_left' h, if_neg (by omega)]

theorem num_flat {k : Nat} : ∀ {vs : List Nat} {R : List UInt8}, (∀ v ∈ vs, v < 256 ^ k) → ∀ i v, vs[i]? = some v →
    num (vs.flatMap (leBytes k) ++ R) (i * k) k = .ok v
  | [], _, _, i, v, h => by simp at h
  | p :: vs, R, hp, 0, v, h => by
    obtain rfl : p = v := by simpa using h
    rw [List.flatMap_cons, List.append_assoc, Nat.zero_mul, num_zero (leBytes_length ..),
      leVal_leBytes (hp p (List.mem_cons_self ..))]
  | p :: vs, R, hp, i + 1, v, h => by
    have ih := num_flat (R := R) (fun x hx => hp x (List.mem_cons_of_mem _ hx)) i v (by simpa using h)
    unfold num at ih ⊢
    rw [List.flatMap_cons, List.append_assoc, show (i + 1) * k = k + i * k by rw [Nat.add_mul]; omega,
      ← List.drop_drop, List.drop_left' (leBytes_length ..)]
    exact ih

theorem at'_eq_num {src : List UInt8} {i : Nat} : at' src i = num src i 1 := by
  unfold at' num
  dsimp only
  cases h : src[i]? with
  | none =>
    have := List.getElem?_eq_none_iff.1 h
    rw [if_pos]
    rw [List.length_take, List.length_drop]
    omega
  | some b =>
    obtain ⟨h1, h2⟩ := List.getElem?_eq_some_iff.1 h
    rw [if_neg (by rw [List.length_take, List.length_drop]; omega), List.drop_eq_getElem_cons h1, h2]
    simp [leVal]

theorem flat_length {k : Nat} (vs : List Nat) : (vs.flatMap (leBytes k)).length = vs.length * k := by
  induction vs with
  | nil => simp
  | cons v vs ih => rw [List.flatMap_cons, List.length_append, ih, leBytes_length, List.length_cons, Nat.add_mul]; omega

theorem pack12_length : ∀ ps : List Nat, (pack12 ps).length ≤ 6 * ps.length
  | [] => by simp [pack12]
  | [_] => by simp [pack12, pack12.group]
  | [_, _] => by simp [pack12, pack12.group]
  | [_, _, _] => by simp [pack12, pack12.group]
  | _ :: _ :: _ :: _ :: t => by
    have := pack12_length t
    simp only [pack12, pack12.group, List.length_append, List.length_cons, List.length_nil]
    omega

theorem packNibbles_length : ∀ vs : List Nat, (packNibbles vs).length = (vs.length + 1) / 2
  | [] => rfl
  | [_] => by simp [packNibbles]
  | a :: b :: t => by
    rw [packNibbles, List.length_cons, packNibbles_length t]
    simp only [List.length_cons]
    omega

theorem cyVal_nibbles : ∀ {vs : List Nat} {R : List UInt8}, (∀ v ∈ vs, v < 16) → ∀ i v, vs[i]? = some v →
    cyVal 1 (packNibbles vs ++ R) i = .ok v
  | [], _, _, i, v, h => by simp at h
  | [a], R, hp, i, v, h => by
    obtain rfl : i = 0 := by
      have := (List.getElem?_eq_some_iff.1 h).1
      simp at this
      omega
    obtain rfl : a = v := by simpa using h
    have := hp a (by simp)
    simp [cyVal, packNibbles, at']
    omega
  | a :: b :: t, R, hp, i, v, h => by
    have ha := hp a (by simp)
    have hb := hp b (by simp)
    match i, h with
    | 0, h =>
      obtain rfl : a = v := by simpa using h
      simp [cyVal, packNibbles, at']
      omega
    | 1, h =>
      obtain rfl : b = v := by simpa using h
      simp [cyVal, packNibbles, at']
      omega
    | i + 2, h =>
      have ih := cyVal_nibbles (vs := t) (R := R) (fun x hx => hp x (by simp [hx])) i v (by simpa using h)
      unfold cyVal at ih ⊢
      rw [if_pos rfl] at ih ⊢
      have e : at' (packNibbles (a :: b :: t) ++ R) ((i + 2) / 2) = at' (packNibbles t ++ R) (i / 2) := by
        unfold at'
        rw [packNibbles, List.cons_append, show (i + 2) / 2 = i / 2 + 1 by omega, List.getElem?_cons_succ]
      rw [e, show (i + 2) % 2 = i % 2 by omega]
      exact ih

theorem Bunch.two_le (b : Bunch) : 2 ≤ b.bytes.length := by
  cases b <;> simp [Bunch.bytes]

theorem toNat_small {n : Nat} (h : n < 256) : (UInt8.ofNat n).toNat = n := by
  rw [UInt8.toNat_ofNat']
  omega

theorem cyBunch_ok {M n : Nat} {b : Bunch} (hw : b.Wf) (h4 : ∀ g vs, b ≠ .wide 4 g vs) (R : List UInt8)
    (channel : Nat) (f : Nat → Nat) :
    cyBunch M n (b.bytes ++ R) channel (row M n f) = .ok (row M n fun c => f c +
      if channel ≤ c then b.values[c - channel]?.getD 0 else 0, b.values.length, b.bytes.length - 2) := by
  cases b with
  | zeros k =>
    simp only [Bunch.bytes, List.cons_append, List.nil_append, cyBunch]
    rw [if_pos (by rfl), toNat_small hw]
    simp only [Bunch.values, List.length_replicate, List.length_cons, List.length_nil]
    congr 2
    refine row_congr ?_
    intro c _
    rw [List.getElem?_replicate]
    split
    · split <;> rfl
    · rfl
  | nibbles gain vs =>
    obtain ⟨h1, h2, h3⟩ := hw
    simp only [Bunch.bytes, List.cons_append, cyBunch]
    rw [toNat_small h1, if_neg (by decide), if_pos (by rfl),
      show UInt8.ofNat gain :: (packNibbles vs ++ R) = [UInt8.ofNat gain] ++ (packNibbles vs ++ R) from rfl,
      num_zero (w := 1) rfl, show leVal [UInt8.ofNat gain] = gain by simp [leVal]; omega]
    dsimp only
    rw [show ((1 : UInt8).toNat) = 1 from rfl, List.drop_left' (by rfl),
      cyFill_ok (i := 0) (by
        intro k v hk
        rw [Nat.zero_add]
        exact cyVal_nibbles h3 k v hk)]
    dsimp only
    rw [if_pos rfl]
    simp only [Bunch.values, List.length_map, List.length_cons, packNibbles_length, Nat.add_zero]
    congr 3
    omega
  | wide k gain vs =>
    obtain ⟨hk, h1, h2, h3⟩ := hw
    have hk4 : k ≠ 4 := fun e => h4 gain vs (by rw [e])
    have hk2 : k = 1 ∨ k = 2 := by omega
    simp only [Bunch.bytes, List.cons_append, cyBunch]
    rw [toNat_small h1, toNat_small (show 2 * k < 256 by omega), if_neg (by omega), List.append_assoc]
    have hg : num (leBytes (2 * k) gain ++ (vs.flatMap (leBytes k) ++ R)) 0
        (if 2 * k = 1 then 1 else if 2 * k = 2 then 2 else if 2 * k = 4 then 4 else 5) = .ok gain := by
      rw [show (if 2 * k = 1 then 1 else if 2 * k = 2 then 2 else if 2 * k = 4 then 4 else 5) = 2 * k by
        rcases hk2 with rfl | rfl <;> rfl, num_zero (leBytes_length ..), leVal_leBytes h2]
    rw [hg]
    dsimp only
    rw [List.drop_left' (leBytes_length ..), cyFill_ok (i := 0) (by
        intro i v hi
        rw [Nat.zero_add]
        rcases hk2 with rfl | rfl
        · have := num_flat (R := R) h3 i v hi
          unfold cyVal
          rw [if_neg (by decide), if_pos (by rfl), at'_eq_num]
          rwa [Nat.mul_one] at this
        · unfold cyVal
          rw [if_neg (by decide), if_neg (by decide), if_pos (by rfl)]
          exact num_flat (R := R) h3 i v hi)]
    dsimp only
    rw [if_neg (by omega)]
    simp only [Bunch.values, List.length_map, List.length_cons, Nat.add_zero, List.length_append, leBytes_length,
      flat_length]
    congr 3
    have : vs.length * (2 * k) / 2 = vs.length * k := by
      rw [show vs.length * (2 * k) = 2 * (vs.length * k) by ring]
      omega
    omega

theorem cyInstr_ok {M n : Nat} : ∀ {bs : List Bunch} {R : List UInt8} {channel : Nat} {f : Nat → Nat},
    (∀ b ∈ bs, b.Wf) → (∀ b ∈ bs, ∀ g vs, b ≠ .wide 4 g vs) →
    cyInstr M n (bs.flatMap Bunch.bytes).length (bs.flatMap Bunch.bytes ++ R) channel (row M n f) =
      .ok (row M n fun c => f c + if channel ≤ c then (bs.flatMap Bunch.values)[c - channel]?.getD 0 else 0)
  | [], R, channel, f, _, _ => by
    rw [cyInstr, if_pos (by rfl)]
    congr 1
    refine row_congr ?_
    intro c _
    simp
  | b :: bs, R, channel, f, hw, h4 => by
    have h2 := b.two_le
    rw [cyInstr, List.flatMap_cons, if_neg (by rw [List.length_append]; omega), List.append_assoc,
      cyBunch_ok (hw b (List.mem_cons_self ..)) (h4 b (List.mem_cons_self ..))]
    dsimp only
    rw [show 2 + (b.bytes.length - 2) = b.bytes.length by omega, List.length_append, Nat.add_sub_cancel_left,
      List.drop_left' rfl, cyInstr_ok (fun x hx => hw x (List.mem_cons_of_mem _ hx))
        (fun x hx => h4 x (List.mem_cons_of_mem _ hx))]
    congr 1
    refine row_congr ?_
    intro c _
    rw [List.flatMap_cons]
    by_cases h : channel ≤ c
    · rw [if_pos h, if_pos h]
      by_cases hl : channel + b.values.length ≤ c
      · rw [if_pos hl, List.getElem?_append_right (by omega), List.getElem?_eq_none_iff.2 (by omega),
          show c - channel - b.values.length = c - (channel + b.values.length) by omega]
        rfl
      · rw [if_neg hl, List.getElem?_append_left (by omega)]
        rfl
    · rw [if_neg h, if_neg h, if_neg (by omega)]

theorem cyExtra_ok {chnk M n : Nat} (hc : 2 ≤ chnk) : ∀ {ps : List Nat} {s : Src} {R : List UInt8} {f : Nat → Nat},
    (∀ p ∈ ps, p < 2 ^ 16) → Rep chnk s (ps.flatMap (leBytes 2) ++ R) →
    ∃ s', cyExtra chnk M n ps.length s (row M n f) = .ok (row M n fun c => f c + ps.count c, s') ∧ Rep chnk s' R
  | [], s, R, f, _, h => ⟨s, rfl, by simpa using h⟩
  | p :: ps, s, R, f, hp, h => by
    rw [List.flatMap_cons, List.append_assoc] at h
    obtain ⟨s1, h1, h2⟩ := cyRead_ok h (leBytes_length ..) hc
    obtain ⟨s2, h3, h4⟩ := cyExtra_ok (M := M) (n := n) (f := fun x => f x + if x = p then 1 else 0) hc
      (fun x hx => hp x (List.mem_cons_of_mem _ hx)) h2
    refine ⟨s2, ?_, h4⟩
    rw [List.length_cons, cyExtra, h1]
    dsimp only
    rw [leVal_leBytes (by simpa using hp p (List.mem_cons_self ..)), bump_row, h3]
    congr 2
    refine row_congr ?_
    intro c _
    rw [List.count_cons]
    by_cases e : p = c
    · simp [e]; omega
    · rw [if_neg (Ne.symm e), if_neg (by simpa using e)]
      omega

theorem cyContent_ok {chnk M n flag : Nat} {k : Content} {s : Src} {R : List UInt8} {f : Nat → Nat} (hc : 4 ≤ chnk)
    (hs : k.size ≤ chnk) (hw : k.Wf) (hf : k.flag flag) (hk : k.Compiled)
    (h : Rep chnk s (k.data ++ (k.tail ++ R))) :
    ∃ s', cyContent chnk M n flag k.pulses k.size s (row M n f) =
      .ok (row M n fun c => f c + k.count c, s') ∧ Rep chnk s' R := by
  cases k with
  | pulses16 ps =>
    obtain rfl : flag = 0 := hf
    obtain ⟨R', s1, h1, h2⟩ := cyPtr_ok h rfl hs
    refine ⟨s1, ?_, h2⟩
    unfold cyContent
    rw [if_pos rfl, show (Content.pulses16 ps).size = (Content.pulses16 ps).data.length from rfl, h1]
    dsimp only
    rw [show (Content.pulses16 ps).pulses = ps.length from rfl, cyPulses_ok (i := 0) (by
      intro k q hk
      rw [Nat.zero_add]
      exact chan16_ok hw.2 k q hk)]
    rfl
  | pulses12 ps =>
    obtain rfl : flag = 1 := hf
    obtain ⟨R', s1, h1, h2⟩ := cyPtr_ok h rfl hs
    refine ⟨s1, ?_, h2⟩
    unfold cyContent
    rw [if_neg (by decide), if_pos rfl, show (Content.pulses12 ps).size = (Content.pulses12 ps).data.length from rfl, h1]
    dsimp only
    rw [show (Content.pulses12 ps).pulses = ps.length from rfl, cyPulses_ok (i := 0) (by
      intro k q hk
      rw [Nat.zero_add]
      exact (both12 (py12_ok hw.2)).2 k q hk)]
    rfl
  | packed bs extra =>
    obtain ⟨hf1, hf2⟩ := hf
    obtain ⟨hw1, hw2, hw3, hw4⟩ := hw
    have hsz : (Content.packed bs extra).size = (bs.flatMap Bunch.bytes).length + 4 := rfl
    have hlen : (bs.flatMap Bunch.bytes).length ≤ chnk := by omega
    obtain ⟨R', s1, h1, h2⟩ := cyPtr_ok h (n := (bs.flatMap Bunch.bytes).length) rfl hlen
    unfold cyContent
    rw [if_neg (by omega), if_neg (by omega), hsz, if_neg (by omega), Nat.add_sub_cancel, h1]
    dsimp only
    rw [Nat.mod_eq_of_lt hk.2, show (Content.packed bs extra).data = bs.flatMap Bunch.bytes from rfl,
      cyInstr_ok hw1 hk.1]
    dsimp only
    rw [show (Content.packed bs extra).tail = leBytes 4 (2 * extra.length) ++ extra.flatMap (leBytes 2) from rfl,
      List.append_assoc] at h2
    rw [show (Content.packed bs extra).pulses = extra.length from rfl]
    have hcount : ∀ c, (f c + if 0 ≤ c then (bs.flatMap Bunch.values)[c - 0]?.getD 0 else 0) + extra.count c =
        f c + (Content.packed bs extra).count c := by
      intro c
      rw [if_pos (Nat.zero_le _), Nat.sub_zero, Nat.add_assoc]
      rfl
    by_cases he : 0 < extra.length
    · rw [if_pos he]
      obtain ⟨s2, h3, h4⟩ := cyRead_ok h2 (leBytes_length ..) hc
      obtain ⟨s3, h5, h6⟩ := cyExtra_ok (M := M) (n := n) (by omega) hw4 h4
      refine ⟨s3, ?_, h6⟩
      rw [h3]
      dsimp only
      rw [h5]
      congr 2
      exact row_congr fun c _ => hcount c
    · rw [if_neg he]
      obtain rfl : extra = [] := List.eq_nil_iff_length_eq_zero.2 (by omega)
      obtain ⟨s2, h3, h4⟩ := cySkip_ok h2 (leBytes_length ..) hc
      refine ⟨s2, ?_, by simpa using h4⟩
      rw [h3]
      dsimp only
      congr 2

theorem cyHead_ok {chnk : Nat} {p : Px} {s : Src} {R : List UInt8} (hc : 4 ≤ chnk) (hw : p.Wf)
    (h : Rep chnk s (p.head ++ R)) :
    ∃ s', cyHead chnk s = .ok ((p.x, p.flag, p.content.pulses, p.content.size), s') ∧ Rep chnk s' R := by
  obtain ⟨hx, hc1, hc2, ha, hf, hb, hcw⟩ := hw
  have hflag : p.flag < 2 ^ 16 := by
    cases hk : p.content with
    | pulses16 ps => rw [hk] at hf; simp [Content.flag] at hf; omega
    | pulses12 ps => rw [hk] at hf; simp [Content.flag] at hf; omega
    | packed bs extra => rw [hk] at hf; exact hf.2
  have hpulses : p.content.pulses < 2 ^ 16 := by
    cases hk : p.content with
    | pulses16 ps => rw [hk] at hcw; exact hcw.1
    | pulses12 ps => rw [hk] at hcw; exact hcw.1
    | packed bs extra => rw [hk] at hcw; exact hcw.2.2.1
  have hsize : p.content.size < 2 ^ 32 := by
    cases hk : p.content with
    | pulses16 ps =>
      rw [hk] at hcw
      show (ps.flatMap (leBytes 2)).length < _
      rw [flat_length]
      have := hcw.1
      omega
    | pulses12 ps =>
      rw [hk] at hcw
      show (pack12 ps).length < _
      have := pack12_length ps
      have := hcw.1
      omega
    | packed bs extra =>
      rw [hk] at hcw
      show (bs.flatMap Bunch.bytes).length + 4 < _
      have := hcw.2.1
      omega
  unfold Px.head at h
  simp only [List.append_assoc] at h
  obtain ⟨s1, e1, h⟩ := cyRead_ok h (leBytes_length ..) hc
  obtain ⟨s2, e2, h⟩ := cyRead_ok h (leBytes_length ..) (by omega)
  obtain ⟨s3, e3, h⟩ := cyRead_ok h (leBytes_length ..) (by omega)
  obtain ⟨s4, e4, h⟩ := cySkip_ok h ha (by omega)
  obtain ⟨s5, e5, h⟩ := cyRead_ok h (leBytes_length ..) (by omega)
  obtain ⟨s6, e6, h⟩ := cyRead_ok h hb (by omega)
  obtain ⟨s7, e7, h⟩ := cyRead_ok h (leBytes_length ..) (by omega)
  obtain ⟨s8, e8, h⟩ := cyRead_ok h (leBytes_length ..) (by omega)
  refine ⟨s8, ?_, h⟩
  unfold cyHead
  rw [e1]
  dsimp only
  rw [e2]
  dsimp only
  rw [e3]
  dsimp only
  rw [e4]
  dsimp only
  rw [e5]
  dsimp only
  rw [e6]
  dsimp only
  rw [e7]
  dsimp only
  rw [e8]
  dsimp only
  rw [leVal_leBytes (by simpa using hx), leVal_leBytes (by simpa using hflag),
    leVal_leBytes (by simpa using hpulses), leVal_leBytes (by simpa using hsize)]

/-! ### The Python decoder -/

theorem codes_ok {k : Nat} : ∀ {vs : List Nat} {R : List UInt8}, (∀ v ∈ vs, v < 256 ^ k) →
    codes k vs.length (vs.flatMap (leBytes k) ++ R) = vs
  | [], _, _ => rfl
  | v :: vs, R, h => by
    rw [List.length_cons, codes, List.flatMap_cons, List.append_assoc, List.take_left' (leBytes_length ..),
      List.drop_left' (leBytes_length ..), leVal_leBytes (h v (List.mem_cons_self ..)),
      codes_ok fun x hx => h x (List.mem_cons_of_mem _ hx)]

theorem nibbles_ok {gain : Nat} : ∀ {vs : List Nat}, (∀ v ∈ vs, v < 16) →
    ((packNibbles vs).flatMap fun b => [b.toNat % 16 + gain, b.toNat / 16 + gain]).take vs.length =
      vs.map (· + gain)
  | [], _ => rfl
  | [a], h => by
    have := h a (by simp)
    simp [packNibbles]
    omega
  | a :: b :: t, h => by
    have ha := h a (by simp)
    have hb := h b (by simp)
    have ih := nibbles_ok (gain := gain) (vs := t) fun x hx => h x (by simp [hx])
    simp only [packNibbles, List.flatMap_cons, List.length_cons, List.cons_append, List.nil_append,
      List.take_succ_cons, List.map_cons, ih, UInt8.toNat_ofNat']
    congr 1
    · omega
    · congr 1
      omega

theorem pyBunch_ok {b : Bunch} (hw : b.Wf) (R : List UInt8) :
    pyBunch (b.bytes ++ R) = .ok (b.values, b.bytes.length - 2) := by
  cases b with
  | zeros k =>
    simp only [Bunch.bytes, List.cons_append, List.nil_append, pyBunch]
    rw [if_pos (by rfl), toNat_small hw]
    rfl
  | nibbles gain vs =>
    obtain ⟨h1, h2, h3⟩ := hw
    simp only [Bunch.bytes, List.cons_append, pyBunch]
    rw [toNat_small h1, if_neg (by decide), if_pos (by decide), show ((1 : UInt8).toNat) = 1 from rfl,
      if_neg (by simp), if_pos rfl]
    simp only [List.take_succ_cons, List.take_zero, List.drop_succ_cons, List.drop_zero, List.length_append]
    rw [packNibbles_length, if_neg (by omega), List.take_left' (packNibbles_length vs), nibbles_ok h3,
      show leVal [UInt8.ofNat gain] = gain by simp [leVal]; omega]
    simp only [Bunch.values, List.length_cons, packNibbles_length]
    congr 2
    omega
  | wide k gain vs =>
    obtain ⟨hk, h1, h2, h3⟩ := hw
    have hdiv : vs.length * (2 * k) / 2 = vs.length * k := by
      rw [show vs.length * (2 * k) = 2 * (vs.length * k) by ring]
      omega
    simp only [Bunch.bytes, List.cons_append, pyBunch]
    rw [toNat_small h1, toNat_small (show 2 * k < 256 by omega), if_neg (by omega), if_pos (by omega),
      List.append_assoc, if_neg (by rw [List.length_append, leBytes_length]; omega), if_neg (by omega), hdiv,
      List.drop_left' (leBytes_length ..), List.take_left' (leBytes_length ..),
      if_neg (by rw [List.length_append, flat_length]; omega), show 2 * k / 2 = k by omega, codes_ok h3,
      leVal_leBytes h2]
    simp only [Bunch.values, List.length_cons, List.length_append, leBytes_length, flat_length]
    congr 2

theorem pyInstr_ok : ∀ {bs : List Bunch} {R : List UInt8}, (∀ b ∈ bs, b.Wf) →
    pyInstr (bs.flatMap Bunch.bytes).length (bs.flatMap Bunch.bytes ++ R) =
      .ok (bs.flatMap Bunch.values, (bs.flatMap Bunch.bytes).length)
  | [], R, _ => by
    rw [pyInstr, if_pos (by rfl)]
    rfl
  | b :: bs, R, hw => by
    have h2 := b.two_le
    rw [pyInstr, List.flatMap_cons, if_neg (by rw [List.length_append]; omega), List.append_assoc,
      pyBunch_ok (hw b (List.mem_cons_self ..))]
    dsimp only
    rw [show 2 + (b.bytes.length - 2) = b.bytes.length by omega, List.length_append, Nat.add_sub_cancel_left,
      List.drop_left' rfl, pyInstr_ok (fun x hx => hw x (List.mem_cons_of_mem _ hx))]
    rfl

theorem addPulses_ok : ∀ {cs pixel : List Nat}, (∀ c ∈ cs, c < pixel.length) →
    ∃ pixel', addPulses cs pixel = .ok pixel' ∧ ∀ c, pixel'[c]? = pixel[c]?.map (· + cs.count c)
  | [], pixel, _ => ⟨pixel, rfl, by intro c; simp⟩
  | a :: cs, pixel, h => by
    obtain ⟨pixel', h1, h2⟩ := addPulses_ok (cs := cs) (pixel := pixel.modify a (· + 1)) (by
      intro c hc
      rw [List.length_modify]
      exact h c (List.mem_cons_of_mem _ hc))
    refine ⟨pixel', ?_, ?_⟩
    · rw [addPulses, if_pos (h a (List.mem_cons_self ..)), h1]
    · intro c
      rw [h2, List.getElem?_modify, List.count_cons]
      cases pixel[c]? with
      | none => rfl
      | some v =>
        by_cases e : a = c
        · simp [e]; omega
        · simp [e]

theorem foldr_max_le (ps : List Nat) (m : Nat) : m ≤ ps.foldr (fun p a => max (p + 1) a) m ∧
    ∀ q ∈ ps, q < ps.foldr (fun p a => max (p + 1) a) m := by
  induction ps with
  | nil => simp
  | cons p ps ih =>
    rw [List.foldr_cons]
    refine ⟨by omega, ?_⟩
    intro q hq
    rcases List.mem_cons.1 hq with rfl | hq
    · omega
    · have := ih.2 q hq
      omega

theorem bincount_take {ps : List Nat} {m ch : Nat} (h : ch ≤ m ∨ ∃ q ∈ ps, ch ≤ q + 1) :
    (bincount ps m).take ch = (List.range ch).map fun c => ps.count c := by
  unfold bincount
  obtain ⟨h1, h2⟩ := foldr_max_le ps m
  have : ch ≤ ps.foldr (fun p a => max (p + 1) a) m := by
    rcases h with h | ⟨q, hq, h⟩
    · omega
    · have := h2 q hq
      omega
  rw [← List.map_take, List.take_range, Nat.min_eq_left this]

theorem pyStore_ok {M n ch : Nat} {add lst : Bool} {f g : Nat → Nat} {pixel : List Nat} (hch : ch ≤ n)
    (hp : pixel.take ch = (List.range ch).map g) (hg : ∀ c, ch ≤ c → c < n → g c = 0)
    (ha : add = false → (∀ c, c < n → f c = 0) ∧ (lst = true → ∀ c, c < ch → g c < M)) :
    pyStore M add lst ch (row M n f) pixel = .ok (row M n fun c => f c + g c) := by
  unfold pyStore
  rw [if_pos (by rw [hp]; simp), hp]
  dsimp only
  have hget : ∀ c, c < ch → ((List.range ch).map g)[c]? = some (g c) := by
    intro c hc
    rw [List.getElem?_map, List.getElem?_range hc]
    rfl
  cases add with
  | true =>
    rw [if_pos rfl]
    congr 1
    refine List.ext_getElem? ?_
    intro c
    by_cases hc : c < ch
    · rw [List.getElem?_append_left (by simp; omega), List.getElem?_zipWith, hget c hc, row_get (by omega),
        row_get (by omega)]
      simp
    · rw [List.getElem?_append_right (by simp; omega)]
      simp only [List.length_zipWith, row_length, List.length_map, List.length_range, Nat.min_eq_right hch,
        List.getElem?_drop]
      rw [show ch + (c - ch) = c by omega]
      by_cases hn : c < n
      · rw [row_get hn, row_get hn, hg c (by omega) hn]
        rfl
      · rw [List.getElem?_eq_none_iff.2 (by simp; omega), List.getElem?_eq_none_iff.2 (by simp; omega)]
  | false =>
    obtain ⟨hz, hl⟩ := ha rfl
    rw [if_neg (by simp), if_neg]
    · congr 1
      refine List.ext_getElem? ?_
      intro c
      by_cases hc : c < ch
      · rw [List.getElem?_append_left (by simp; omega), List.getElem?_map, hget c hc, row_get (by omega),
          hz c (by omega)]
        simp
      · rw [List.getElem?_append_right (by simp; omega)]
        simp only [List.length_map, List.length_range, List.getElem?_drop]
        rw [show ch + (c - ch) = c by omega]
        by_cases hn : c < n
        · rw [row_get hn, row_get hn, hg c (by omega) hn]
          rfl
        · rw [List.getElem?_eq_none_iff.2 (by simp; omega), List.getElem?_eq_none_iff.2 (by simp; omega)]
    · rintro ⟨h1, h2⟩
      rw [List.any_eq_true] at h2
      obtain ⟨v, hv, hM⟩ := h2
      obtain ⟨c, hc, rfl⟩ := List.mem_map.1 hv
      have := hl h1 c (List.mem_range.1 hc)
      have := of_decide_eq_true hM
      omega

end Verif.Hypermap
