import Verif.Spec.JeolEds
/-! Lemmas about the reader of `.eds` files. -/
namespace Verif.JeolEds
open Verif Verif.JeolTree

theorem bind_ok {α β : Type} {m : Rd α} {k : α → Rd β} {f g : List UInt8} {a : α} (h : m f = .ok (a, g)) : (m >>= k) f = k a g := by
  show (match m f with | .error e => Except.error e | .ok (a, g) => k a g) = _
  rw [h]

/-- At a place of a block. -/
theorem bind_num_at {β : Type} {w p : Nat} {k : Nat → Rd β} {b r : List UInt8} (h : p + w ≤ b.length) :
    (num w >>= k) (b.drop p ++ r) = k (leVal ((b.drop p).take w)) (b.drop (p + w) ++ r) := by
  apply bind_ok
  unfold num
  have hl : w ≤ (b.drop p).length := by rw [List.length_drop]; omega
  rw [if_neg (by rw [List.length_append]; omega), List.take_append_of_le_length hl, List.drop_append_of_le_length hl, List.drop_drop]

theorem bind_skip_at {β : Type} {n p : Nat} {k : Unit → Rd β} {b r : List UInt8} (h : p + n ≤ b.length) :
    (skip n >>= k) (b.drop p ++ r) = k () (b.drop (p + n) ++ r) := by
  apply bind_ok
  unfold skip
  have hl : n ≤ (b.drop p).length := by rw [List.length_drop]; omega
  rw [List.drop_append_of_le_length hl, List.drop_drop]

theorem rstripNul_pad (s : List UInt8) (m : Nat) (h : s.getLast? ≠ some 0) : rstripNul (s ++ List.replicate m 0) = s := by
  unfold rstripNul
  rw [List.reverse_append, List.reverse_replicate]
  have : ∀ m, (List.replicate m (0 : UInt8) ++ s.reverse).dropWhile (fun x => decide (x = 0)) = s.reverse := by
    intro m
    induction m with
    | zero =>
      rw [List.replicate_zero, List.nil_append]
      cases hs : s.reverse with
      | nil => rfl
      | cons c r =>
        have : s.getLast? = some c := by rw [List.getLast?_eq_head?_reverse, hs]; rfl
        rw [this] at h
        rw [List.dropWhile_cons, if_neg]
        simpa using h
    | succ m ih =>
      rw [List.replicate_succ, List.cons_append, List.dropWhile_cons, if_pos (by simp)]
      exact ih
  rw [this m, List.reverse_reverse]

theorem bind_text_at {β : Type} {dec : List UInt8 → Option Text} {n p : Nat} {t : Text} {k : Text → Rd β} {b r : List UInt8}
    (h : p + n ≤ b.length) (ht : TextAt dec b p n t) :
    (text dec (n : Nat) >>= k) (b.drop p ++ r) = k t (b.drop (p + n) ++ r) := by
  apply bind_ok
  obtain ⟨s, ⟨m, h1⟩, h2, h3⟩ := ht
  have hl : n ≤ (b.drop p).length := by rw [List.length_drop]; omega
  unfold text readLen
  rw [if_neg (by omega)]
  simp only [Int.toNat_natCast]
  rw [List.take_append_of_le_length hl, List.drop_append_of_le_length hl, List.drop_drop, h1, rstripNul_pad s m h2, h3]

theorem bind_num {β : Type} {w v : Nat} {k : Nat → Rd β} {r : List UInt8} (h : Fit w v) : (num w >>= k) (leBytes w v ++ r) = k v r := by
  apply bind_ok
  unfold num
  have hl : (leBytes w v).length = w := leBytes_length w v
  rw [if_neg (by rw [List.length_append]; omega), List.take_left' hl, List.drop_left' hl, leVal_leBytes h]

theorem bind_skip {β : Type} {n : Nat} {k : Unit → Rd β} {b r : List UInt8} (h : b.length = n) : (skip n >>= k) (b ++ r) = k () r := by
  apply bind_ok
  unfold skip
  rw [List.drop_left' h]

theorem itemsOf_encode (w : Nat) : ∀ (l : List Nat) (r : List UInt8), (∀ v ∈ l, Fit w v) →
    itemsOf w l.length (l.flatMap (leBytes w) ++ r) = l ∧ (l.flatMap (leBytes w) ++ r).drop (l.length * w) = r
  | [], r, _ => by simp [itemsOf]
  | v :: l, r, h => by
    obtain ⟨i1, i2⟩ := itemsOf_encode w l r fun v hv => h v (List.mem_cons_of_mem _ hv)
    have hl : (leBytes w v).length = w := leBytes_length w v
    constructor
    · rw [List.length_cons, itemsOf, List.flatMap_cons, List.append_assoc, if_neg (by rw [List.length_append]; omega), List.take_left' hl,
        List.drop_left' hl, leVal_leBytes (h v List.mem_cons_self), i1]
    · rw [List.length_cons, Nat.add_mul, Nat.one_mul, Nat.add_comm, ← List.drop_drop, List.flatMap_cons, List.append_assoc, List.drop_left' hl, i2]

theorem bind_unpack {β : Type} {w : Nat} {l : List Nat} {k : List Nat → Rd β} {r : List UInt8} (h : ∀ v ∈ l, Fit w v) :
    (unpack w l.length >>= k) (l.flatMap (leBytes w) ++ r) = k l r := by
  apply bind_ok
  obtain ⟨i1, i2⟩ := itemsOf_encode w l r h
  unfold unpack
  simp only [i1, i2]
  simp

theorem bind_items {β : Type} {w : Nat} {l : List Nat} {k : List Nat → Rd β} {r : List UInt8} (h : ∀ v ∈ l, Fit w v) :
    (items w (l.length : Nat) >>= k) (l.flatMap (leBytes w) ++ r) = k l r := by
  apply bind_ok
  obtain ⟨i1, i2⟩ := itemsOf_encode w l r h
  unfold items
  rw [if_neg (by omega)]
  simp only [Int.toNat_natCast, i1, i2]

theorem bind_text {β : Type} {enc : Text → List UInt8} {dec : List UInt8 → Option Text} {n : Nat} {t : Text} {k : Text → Rd β} {r : List UInt8}
    (i : Int) (hi : i = (n : Nat)) (h : Writes enc dec n t) : (text dec i >>= k) (padText enc n t ++ r) = k t r := by
  subst hi
  apply bind_ok
  obtain ⟨h1, h2, h3⟩ := h
  have hl : (padText enc n t).length = n := by unfold padText; rw [List.length_append, List.length_replicate]; omega
  unfold text readLen
  rw [if_neg (by omega)]
  simp only [Int.toNat_natCast]
  rw [List.take_left' hl, List.drop_left' hl]
  unfold padText
  rw [rstripNul_pad _ _ h2, h1]

/-- A name after its length. -/
theorem bind_name {β : Type} {enc : Text → List UInt8} {dec : List UInt8 → Option Text} {t : Text} {k : Text → Rd β} {r : List UInt8}
    (h : Writes enc dec 127 t) : (text dec (toSigned 1 (enc t).length) >>= k) (enc t ++ r) = k t r := by
  obtain ⟨h1, h2, h3⟩ := h
  have hs : toSigned 1 (enc t).length = ((enc t).length : Nat) := by unfold toSigned; rw [if_pos (by omega)]
  have := bind_text (n := (enc t).length) (k := k) (r := r) (enc := enc) _ rfl ⟨h1, h2, Nat.le_refl _⟩
  unfold padText at this
  rw [Nat.sub_self, List.replicate_zero, List.append_nil] at this
  rw [hs]
  exact this

theorem toSigned_small {n : Nat} (h : n < 2 ^ 31) : toSigned 4 n = (n : Int) := by
  unfold toSigned
  rw [if_pos (by omega)]

theorem toSigned_count {c : Int} (h : Small c) : toSigned 4 (ofSigned 4 c) = c := by
  obtain ⟨h1, h2⟩ := h
  exact toSigned_ofSigned (by norm_num; omega) (by norm_num; omega)

theorem line_spec (enc : Text → List UInt8) (dec : List UInt8 → Option Text) (z : Nat) (l : LineS) (h : GoodLine enc dec z l) (r : List UInt8) :
    line dec (lineBytes enc l ++ r) = .ok ((l.el ++ '_' :: l.name, ⟨l.energy, l.z, l.det⟩), r) := by
  have e1 : Fit 1 (enc l.el).length := by have := h.el.2.2; unfold Fit; omega
  have e2 : Fit 1 (enc l.name).length := by have := h.name.2.2; unfold Fit; omega
  unfold line lineBytes
  simp only [List.append_assoc]
  rw [bind_num h.mark, bind_num h.energy, bind_num h.zFit, bind_num e1, bind_name h.el, bind_num e2, bind_name h.name,
    bind_num (ofSigned_lt 4 _), toSigned_count h.det]
  rfl

theorem lines_spec (enc : Text → List UInt8) (dec : List UInt8 → Option Text) (z : Nat) : ∀ (ls : List LineS) (z0 : Option Nat)
    (acc : List (Text × Line)) (r : List UInt8), (∀ l ∈ ls, GoodLine enc dec z l) →
    (acc.map (·.1) ++ ls.map fun l => l.el ++ '_' :: l.name).Nodup →
    lines dec ls.length z0 acc (ls.flatMap (lineBytes enc) ++ r) =
      .ok ((acc ++ ls.map fun l => (l.el ++ '_' :: l.name, ⟨l.energy, l.z, l.det⟩), if ls = [] then z0 else some z), r)
  | [], z0, acc, r, _, _ => by
    rw [List.map_nil, List.append_nil]
    rfl
  | l :: ls, z0, acc, r, h, hn => by
    have hl := h l List.mem_cons_self
    have hnew : l.el ++ '_' :: l.name ∉ acc.map (·.1) := by
      intro hm
      rw [List.nodup_append] at hn
      exact hn.2.2 _ hm _ (List.mem_map.2 ⟨l, List.mem_cons_self, rfl⟩) rfl
    rw [List.length_cons, lines, List.flatMap_cons, List.append_assoc, bind_ok (line_spec enc dec z l hl _)]
    dsimp only
    rw [setKw_new hnew,
      lines_spec enc dec z ls _ _ r (fun l hl => h l (List.mem_cons_of_mem _ hl)) (by
        rw [List.map_append, List.map_cons, List.map_nil, List.append_assoc]
        simpa using hn)]
    have := hl.same
    simp [List.append_assoc, this]

theorem elem_spec (enc : Text → List UInt8) (dec : List UInt8 → Option Text) (e : ElemS) (h : GoodElem enc dec e) (z0 : Option Nat)
    (r : List UInt8) : elem dec z0 (elemBytes enc e ++ r) = .ok (elemEntry e, r) := by
  unfold elem elemBytes
  simp only [List.append_assoc]
  rw [bind_num h.mark, bind_num h.z]
  have u1 : ∀ (k : List Nat → Rd (Text × Elem)) (s : List UInt8), (unpack 4 2 >>= k) (leBytes 4 e.m1 ++ (leBytes 4 e.m2 ++ s)) = k [e.m1, e.m2] s := by
    intro k s
    have := bind_unpack (w := 4) (l := [e.m1, e.m2]) (k := k) (r := s) (by
      intro v hv
      simp only [List.mem_cons, List.not_mem_nil, or_false] at hv
      rcases hv with rfl | rfl
      exacts [h.m1, h.m2])
    simpa [List.append_assoc] using this
  have u2 : ∀ (k : List Nat → Rd (Text × Elem)) (s : List UInt8),
      (unpack 2 2 >>= k) (leBytes 2 e.roiMin ++ (leBytes 2 e.roiMax ++ s)) = k [e.roiMin, e.roiMax] s := by
    intro k s
    have := bind_unpack (w := 2) (l := [e.roiMin, e.roiMax]) (k := k) (r := s) (by
      intro v hv
      simp only [List.mem_cons, List.not_mem_nil, or_false] at hv
      rcases hv with rfl | rfl
      exacts [h.roiMin, h.roiMax])
    simpa [List.append_assoc] using this
  have u3 : ∀ (k : List Nat → Rd (Text × Elem)) (s : List UInt8),
      (unpack 8 4 >>= k) (leBytes 8 e.energy ++ (leBytes 8 e.u1 ++ (leBytes 8 e.u2 ++ (leBytes 8 e.u3 ++ s)))) = k [e.energy, e.u1, e.u2, e.u3] s := by
    intro k s
    have := bind_unpack (w := 8) (l := [e.energy, e.u1, e.u2, e.u3]) (k := k) (r := s) (by
      intro v hv
      simp only [List.mem_cons, List.not_mem_nil, or_false] at hv
      rcases hv with rfl | rfl | rfl | rfl
      exacts [h.energy, h.u1, h.u2, h.u3])
    simpa [List.append_assoc] using this
  rw [u1, u2, bind_skip h.pad, u3, bind_text _ (by rfl) h.name, bind_num h.mark3, bind_num (show Fit 4 e.lines.length by have := h.count; unfold Fit; omega),
    toSigned_small h.count, Int.toNat_natCast,
    bind_ok (lines_spec enc dec e.z e.lines z0 [] r h.lines (by simpa using h.distinct))]
  rw [if_neg h.some]
  rfl

theorem elems_spec (enc : Text → List UInt8) (dec : List UInt8 → Option Text) : ∀ (es : List ElemS) (z0 : Option Nat)
    (acc : List (Text × Elem)) (r : List UInt8), (∀ e ∈ es, GoodElem enc dec e) → (acc.map (·.1) ++ es.map (·.name)).Nodup →
    elems dec es.length z0 acc (es.flatMap (elemBytes enc) ++ r) = .ok (acc ++ es.map elemEntry, r)
  | [], z0, acc, r, _, _ => by
    rw [List.map_nil, List.append_nil]
    rfl
  | e :: es, z0, acc, r, h, hn => by
    have he := h e List.mem_cons_self
    have hnew : e.name ∉ acc.map (·.1) := by
      intro hm
      rw [List.nodup_append] at hn
      exact hn.2.2 _ hm _ (List.mem_map.2 ⟨e, List.mem_cons_self, rfl⟩) rfl
    rw [List.length_cons, elems, List.flatMap_cons, List.append_assoc, bind_ok (elem_spec enc dec e he z0 _)]
    dsimp only [elemEntry]
    rw [setKw_new hnew,
      elems_spec enc dec es _ _ r (fun l hl => h l (List.mem_cons_of_mem _ hl)) (by
        rw [List.map_append, List.map_cons, List.map_nil, List.append_assoc]
        simpa using hn)]
    simp [List.append_assoc, elemEntry]

theorem quant_spec (enc : Text → List UInt8) (dec : List UInt8 → Option Text) (q : QuantS) (h : GoodQuant enc dec q)
    (r : List UInt8) : quant dec (quantBytes enc q ++ r) = .ok (quantEntry q, r) := by
  unfold quant quantBytes
  simp only [List.append_assoc]
  rw [bind_num h.mark, bind_num h.z]
  have u1 : ∀ (k : List Nat → Rd (Text × Quant)) (s : List UInt8), (unpack 4 2 >>= k) (leBytes 4 q.m1 ++ (leBytes 4 q.m2 ++ s)) = k [q.m1, q.m2] s := by
    intro k s
    have := bind_unpack (w := 4) (l := [q.m1, q.m2]) (k := k) (r := s) (by
      intro v hv
      simp only [List.mem_cons, List.not_mem_nil, or_false] at hv
      rcases hv with rfl | rfl
      exacts [h.m1, h.m2])
    simpa [List.append_assoc] using this
  have u2 : ∀ (k : List Nat → Rd (Text × Quant)) (s : List UInt8),
      (unpack 8 2 >>= k) (leBytes 8 q.energy ++ (leBytes 8 q.u6 ++ s)) = k [q.energy, q.u6] s := by
    intro k s
    have := bind_unpack (w := 8) (l := [q.energy, q.u6]) (k := k) (r := s) (by
      intro v hv
      simp only [List.mem_cons, List.not_mem_nil, or_false] at hv
      rcases hv with rfl | rfl
      exacts [h.energy, h.u6])
    simpa [List.append_assoc] using this
  rw [u1, u2, bind_num h.mass1, bind_num h.error, bind_num h.atom, bind_text _ (by rfl) h.name, bind_num h.mass2, bind_num h.k, bind_num h.counts,
    bind_num h.v1, bind_num h.v2, bind_num h.v3, bind_num h.v4, bind_num h.v5]
  rfl

theorem quants_spec (enc : Text → List UInt8) (dec : List UInt8 → Option Text) : ∀ (qs : List QuantS)
    (acc : List (Text × Quant)) (r : List UInt8), (∀ q ∈ qs, GoodQuant enc dec q) → (acc.map (·.1) ++ qs.map (·.name)).Nodup →
    quants dec qs.length acc (qs.flatMap (quantBytes enc) ++ r) = .ok (acc ++ qs.map quantEntry, r)
  | [], acc, r, _, _ => by
    rw [List.map_nil, List.append_nil]
    rfl
  | q :: qs, acc, r, h, hn => by
    have hq := h q List.mem_cons_self
    have hnew : q.name ∉ acc.map (·.1) := by
      intro hm
      rw [List.nodup_append] at hn
      exact hn.2.2 _ hm _ (List.mem_map.2 ⟨q, List.mem_cons_self, rfl⟩) rfl
    rw [List.length_cons, quants, List.flatMap_cons, List.append_assoc, bind_ok (quant_spec enc dec q hq _)]
    dsimp only [quantEntry]
    rw [setKw_new hnew,
      quants_spec enc dec qs _ r (fun l hl => h l (List.mem_cons_of_mem _ hl)) (by
        rw [List.map_append, List.map_cons, List.map_nil, List.append_assoc]
        simpa using hn)]
    simp [List.append_assoc, quantEntry]

/-- Bytes of a header or of parameters: from a place on. -/
theorem header_spec (dec : List UInt8 → Option Text) (b r : List UInt8) (n : Nat) (name user state tpl : Text) (hb : b.length = 454)
    (hn : n < 2 ^ 31) (h1 : TextAt dec b 18 80 name) (h2 : TextAt dec b 98 32 user) (h3 : TextAt dec b 378 32 state)
    (h4 : TextAt dec b 422 32 tpl) :
    header dec (b ++ (leBytes 4 n ++ r)) = .ok (⟨at8 b 10, name, user, at8 b 258, at8 b 266, at8 b 274, at8 b 282, at8 b 362,
      at8 b 370, state, tpl, n⟩, r) := by
  unfold header
  rw [show b ++ (leBytes 4 n ++ r) = b.drop 0 ++ (leBytes 4 n ++ r) by rfl]
  repeat rw [bind_num_at (by omega)]
  rw [bind_skip_at (by omega), bind_num_at (by omega)]
  rw [show (80 : Int) = ((80 : Nat) : Int) from rfl, show (32 : Int) = ((32 : Nat) : Int) from rfl]
  rw [bind_text_at (by omega) h1, bind_text_at (by omega) h2]
  repeat rw [bind_skip_at (by omega)]
  repeat first
    | rw [bind_num_at (by omega)]
    | rw [bind_skip_at (by omega)]
  rw [bind_text_at (by omega) h3]
  repeat rw [bind_num_at (by omega)]
  rw [bind_text_at (by omega) h4]
  rw [show b.drop (422 + 32) = [] from List.drop_eq_nil_of_le (by omega), List.nil_append, bind_num (show Fit 4 n by unfold Fit; omega), toSigned_small hn]
  rfl

theorem params_spec (dec : List UInt8 → Option Text) (b r : List UInt8) (detT : Text) (hb : b.length = 340) (h1 : TextAt dec b 0 16 detT)
    (h : ∀ k n, (k, n) ∈ [(16, 16), (32, 16), (212, 4), (226, 16), (310, 4)] → ∃ t, TextAt dec b k n t) :
    params dec (b ++ r) = .ok (⟨detT, at8 b 48, at8 b 102, at8 b 154, at8 b 180, at8 b 196⟩, r) := by
  obtain ⟨t1, h2⟩ := h 16 16 (by simp)
  obtain ⟨t2, h3⟩ := h 32 16 (by simp)
  obtain ⟨t3, h4⟩ := h 212 4 (by simp)
  obtain ⟨t4, h5⟩ := h 226 16 (by simp)
  obtain ⟨t5, h6⟩ := h 310 4 (by simp)
  unfold params
  rw [show b ++ r = b.drop 0 ++ r by rfl, show (16 : Int) = ((16 : Nat) : Int) from rfl, show (4 : Int) = ((4 : Nat) : Int) from rfl]
  rw [bind_text_at (by omega) h1, bind_text_at (by omega) h2, bind_text_at (by omega) h3]
  repeat first
    | rw [bind_num_at (by omega)]
    | rw [bind_skip_at (by omega)]
  rw [bind_text_at (by omega) h4]
  repeat rw [bind_num_at (by omega)]
  rw [bind_text_at (by omega) h5]
  repeat rw [bind_num_at (by omega)]
  rw [bind_text_at (by omega) h6]
  repeat rw [bind_num_at (by omega)]
  show Except.ok (_, b.drop _ ++ r) = _
  rw [show b.drop (310 + 4 + 2 + 8 + 8 + 8) = [] from List.drop_eq_nil_of_le (by omega), List.nil_append]
  rfl

end Verif.JeolEds
