import Verif.Lemmas.Digitalsurf
namespace Verif.Lemmas.Digitalsurf
open Verif.Digitalsurf Verif.Spec.Digitalsurf Verif.BytesSpec

/-! ### Integers of the points -/

def Fits (w : Nat) (i : Int) : Prop := -((256 ^ w : Nat) : Int) ≤ 2 * i ∧ 2 * i < (256 ^ w : Nat)

theorem intBytes_length (w : Nat) (l : List Int) : (intBytes w l).length = l.length * w := by
  induction l with
  | nil => simp [intBytes]
  | cons a l ih =>
    unfold intBytes at ih ⊢
    rw [List.flatMap_cons, List.length_append, ih, leBytes_length, List.length_cons]
    ring

theorem intBytes_append (w : Nat) (l m : List Int) : intBytes w (l ++ m) = intBytes w l ++ intBytes w m := by
  unfold intBytes
  rw [List.flatMap_append]

theorem intsOf_intBytes {w : Nat} : ∀ {l : List Int}, (∀ i ∈ l, Fits w i) → intsOf w l.length (intBytes w l) = l
  | [], _ => rfl
  | a :: l, h => by
    have e : intBytes w (a :: l) = leBytes w (ofSigned w a) ++ intBytes w l := by
      unfold intBytes
      rw [List.flatMap_cons]
    have h1 : (leBytes w (ofSigned w a) ++ intBytes w l).take w = leBytes w (ofSigned w a) := by
      rw [List.take_append_of_le_length (by simp), List.take_of_length_le (by simp)]
    have h2 : (leBytes w (ofSigned w a) ++ intBytes w l).drop w = intBytes w l := by
      rw [List.drop_append, List.drop_of_length_le (by simp)]
      simp
    rw [List.length_cons, intsOf, e, h1, h2, intsOf_intBytes (fun i hi => h i (List.mem_cons_of_mem _ hi)),
      leVal_leBytes (ofSigned_lt _ _), toSigned_ofSigned (h a (List.mem_cons_self ..)).1 (h a (List.mem_cons_self ..)).2]

theorem fromBuffer_ok {w : Nat} {l : List Int} (hw : 0 < w) (h : ∀ i ∈ l, Fits w i) :
    fromBuffer w (intBytes w l) = .ok l := by
  unfold fromBuffer
  rw [intBytes_length, if_pos (Nat.mul_mod_left _ _), Nat.mul_div_cancel _ hw, intsOf_intBytes h]

/-! ### Streams -/

theorem getInt_leBytes {n : Nat} (h : n < 256 ^ 4) : getInt 4 false (leBytes 4 n) = .ok (n : Int) := by
  unfold getInt
  rw [leBytes_length, if_neg (by omega), leVal_leBytes h]
  rfl

theorem directory_step {x y : Nat} (h1 : x < 256 ^ 4) (h2 : y < 256 ^ 4) (n : Nat) {t : Bytes} {l : List (Nat × Nat)} {r : Bytes}
    (h : directory n t = .ok (l, r)) : directory (n + 1) (leBytes 4 x ++ leBytes 4 y ++ t) = .ok ((x, y) :: l, r) := by
  have e1 : (leBytes 4 x ++ leBytes 4 y ++ t).take 4 = leBytes 4 x := by
    rw [List.append_assoc, List.take_left' (leBytes_length _ _)]
  have e2 : ((leBytes 4 x ++ leBytes 4 y ++ t).drop 4).take 4 = leBytes 4 y := by
    rw [List.append_assoc, List.drop_left' (leBytes_length _ _), List.take_left' (leBytes_length _ _)]
  have e3 : (leBytes 4 x ++ leBytes 4 y ++ t).drop 8 = t := List.drop_left' (by simp)
  rw [directory, e1, e2, e3, getInt_leBytes h1, getInt_leBytes h2, h]
  simp

theorem sizes_read (parts : List (Nat × Bytes)) (h : ∀ p ∈ parts, p.1 < 256 ^ 4 ∧ p.2.length < 256 ^ 4) (rest : Bytes) :
    directory parts.length ((parts.flatMap fun p => leBytes 4 p.1 ++ leBytes 4 p.2.length) ++ rest) =
      .ok (parts.map fun p => (p.1, p.2.length), rest) := by
  induction parts with
  | nil => rfl
  | cons p l ih =>
    have hp := h p (List.mem_cons_self ..)
    rw [List.flatMap_cons, List.append_assoc]
    exact directory_step hp.1 hp.2 l.length (ih fun q hq => h q (List.mem_cons_of_mem _ hq))

theorem sizes_ok (parts : List (Nat × Bytes)) {d : Bytes} (h : sizes parts = .ok d) (rest : Bytes) :
    directory parts.length (d ++ rest) = .ok (parts.map fun p => (p.1, p.2.length), rest) := by
  unfold sizes at h
  split at h
  next hp =>
    injection h with h
    rw [← h]
    exact sizes_read parts hp rest
  · contradiction

theorem streams_ok {unzip : Bytes → Py Bytes} {zip : Bytes → Bytes} (hz : ∀ b, unzip (zip b) = .ok b) (rest : Bytes) :
    ∀ (l : List (Nat × Bytes)), streams unzip ((l.map fun p => (p.1, zip p.2)).map fun p => (p.1, p.2.length))
      (((l.map fun p => (p.1, zip p.2)).flatMap fun p => p.2) ++ rest) = .ok (l.flatMap fun p => p.2, rest)
  | [] => rfl
  | (r, b) :: l => by
    rw [List.map_cons, List.map_cons, List.flatMap_cons, streams]
    dsimp only
    rw [List.append_assoc, List.take_append_of_le_length (by omega), List.take_of_length_le (by omega), hz,
      List.drop_left]
    dsimp only
    rw [streams_ok hz rest l]
    rfl

theorem slices_flat (len : Nat) (l : List Int) : ∀ n, (slices n len l).flatten = l.take (n * len)
  | 0 => by simp [slices]
  | n + 1 => by
    unfold slices
    rw [List.range_succ, List.map_append, List.flatten_append]
    have := slices_flat len l n
    unfold slices at this
    rw [this, Nat.succ_mul, List.take_add]
    simp

theorem intBytes_flatten (w : Nat) : ∀ ls : List (List Int), (ls.flatMap fun s => intBytes w s) = intBytes w ls.flatten
  | [] => rfl
  | s :: ls => by rw [List.flatMap_cons, intBytes_flatten w ls, List.flatten_cons, intBytes_append]

theorem compress_read {unzip : Bytes → Py Bytes} {zip : Bytes → Bytes} (hz : ∀ b, unzip (zip b) = .ok b)
    {w n : Nat} {l : List Int} {b : Bytes} (h : compress zip w n l = .ok b) (vs : List Val)
    (hs : textOf vs 1 = tCompressed) (rest : Bytes) : readPoints unzip vs (b ++ rest) = .ok (intBytes w l, rest) := by
  unfold compress at h
  split at h
  · cases h
  next hn =>
    dsimp only at h
    generalize hlen : (if l.length % n ≠ 0 then l.length / n + 1 else l.length / n) = len at h
    have hcover : l.length ≤ n * len := by
      have hdm := Nat.div_add_mod l.length n
      split at hlen
      · subst hlen
        have := Nat.mod_lt l.length (by omega : 0 < n)
        rw [Nat.mul_add]
        omega
      · subst hlen
        omega
    cases hd : sizes ((slices n len l).map fun s => (s.length * w, zip (intBytes w s))) with
    | error e => rw [hd] at h; cases h
    | ok d =>
      rw [hd] at h
      cases h
      unfold readPoints
      rw [if_neg (by rw [hs]; exact fun h => h rfl)]
      have hpl : ((slices n len l).map fun s => (s.length * w, zip (intBytes w s))).length = n := by simp [slices]
      have hdir := sizes_ok _ hd ((((slices n len l).map fun s => (s.length * w, zip (intBytes w s))).flatMap fun p => p.2) ++ rest)
      rw [hpl] at hdir
      have e4 : (leBytes 4 n ++ d ++ (((slices n len l).map fun s => (s.length * w, zip (intBytes w s))).flatMap fun p => p.2) ++ rest).take 4 = leBytes 4 n := by
        rw [List.append_assoc, List.append_assoc, List.take_append_of_le_length (by simp), List.take_of_length_le (by simp)]
      have e5 : (leBytes 4 n ++ d ++ (((slices n len l).map fun s => (s.length * w, zip (intBytes w s))).flatMap fun p => p.2) ++ rest).drop 4 =
          d ++ ((((slices n len l).map fun s => (s.length * w, zip (intBytes w s))).flatMap fun p => p.2) ++ rest) := by
        rw [List.append_assoc, List.append_assoc]
        exact List.drop_left' (leBytes_length _ _)
      have e6 : getInt 4 false (leBytes 4 n) = .ok (n : Int) := by
        unfold getInt
        rw [leBytes_length, if_neg (by omega), leVal_leBytes (by omega)]
        rfl
      rw [e4, e5, e6]
      dsimp only
      rw [Int.toNat_natCast, hdir]
      dsimp only
      have hst := streams_ok hz rest ((slices n len l).map fun s => (s.length * w, intBytes w s))
      rw [List.map_map (f := fun s : List Int => (s.length * w, intBytes w s))] at hst
      rw [show (fun s => (List.length s * w, zip (intBytes w s))) =
        (fun p : Nat × Bytes => (p.1, zip p.2)) ∘ (fun s : List Int => (s.length * w, intBytes w s)) from rfl, hst]
      rw [List.flatMap_map, intBytes_flatten, slices_flat, List.take_of_length_le hcover]

/-! ### Values that come back -/

abbrev BackAll (vs us : List Val) : Prop :=
  List.Forall₂ (fun (p : Kind × Val) u => Back (fieldOf p.1) p.2 u) (layout.zip vs) us

theorem back_get {vs us : List Val} (h : BackAll vs us) (hl : vs.length = layout.length) {n : Nat} {k : Kind}
    (hk : layout[n - 1]? = some k) : ∃ v u, vs[n - 1]? = some v ∧ us[n - 1]? = some u ∧ Back (fieldOf k) v u := by
  have hn : n - 1 < layout.length := by
    by_contra hc
    rw [List.getElem?_eq_none (by omega)] at hk
    cases hk
  have hv : vs[n - 1]? = some vs[n - 1] := List.getElem?_eq_getElem (by omega)
  have hz : (layout.zip vs)[n - 1]? = some (k, vs[n - 1]) := by
    rw [List.getElem?_zip_eq_some]
    exact ⟨hk, hv⟩
  have hlen := h.length_eq
  have hu : n - 1 < us.length := by
    rw [← hlen, List.length_zip]
    omega
  refine ⟨vs[n - 1], us[n - 1], hv, List.getElem?_eq_getElem hu, ?_⟩
  have := List.Forall₂.get h (i := n - 1) (by rw [hlen]; exact hu) hu
  have hz' : (layout.zip vs).get ⟨n - 1, by rw [hlen]; exact hu⟩ = (k, vs[n - 1]) := by
    have := List.getElem?_eq_some_iff.1 hz
    obtain ⟨_, h2⟩ := this
    exact h2
  rw [hz'] at this
  exact this

theorem back_int {vs us : List Val} (h : BackAll vs us) (hl : vs.length = layout.length) {n w : Nat} {s : Bool} {k : Kind}
    (hk : layout[n - 1]? = some k) (hf : fieldOf k = .int w s) : intOf us n = intOf vs n := by
  obtain ⟨v, u, h1, h2, h3⟩ := back_get h hl hk
  rw [hf] at h3
  cases v <;> cases u <;> try (cases h3; done)
  unfold intOf
  rw [h1, h2]
  exact h3

theorem back_float {vs us : List Val} (h : BackAll vs us) (hl : vs.length = layout.length) {n : Nat} {k : Kind}
    (hk : layout[n - 1]? = some k) (hf : fieldOf k = .single) :
    ∃ m, f32Enc (floatOf vs n) = some m ∧ floatOf us n = f32Dec m := by
  obtain ⟨v, u, h1, h2, h3⟩ := back_get h hl hk
  rw [hf] at h3
  cases v <;> cases u <;> try (cases h3; done)
  obtain ⟨m, h4, h5⟩ := h3
  unfold floatOf
  rw [h1, h2]
  exact ⟨m, h4, h5⟩

theorem back_text {vs us : List Val} (h : BackAll vs us) (hl : vs.length = layout.length) {n w : Nat} {k : Kind}
    (hk : layout[n - 1]? = some k) (hf : fieldOf k = .text w) : Trim ((textOf vs n).take w) (textOf us n) := by
  obtain ⟨v, u, h1, h2, h3⟩ := back_get h hl hk
  rw [hf] at h3
  cases v <;> cases u <;> try (cases h3; done)
  unfold textOf
  rw [h1, h2]
  exact h3

/-! ### Objects -/

/-- The points of the object are the integers `l` of `w` bytes. -/
structure Holds (zip : Bytes → Bytes) (o : Obj) (w : Nat) (l : List Int) : Prop where
  bits : (w = 2 ∧ intOf o.vals 15 = 16) ∨ (w = 4 ∧ intOf o.vals 15 = 32)
  fits : ∀ i ∈ l, Fits w i
  points : (textOf o.vals 1 = tUncompressed ∧ o.points = intBytes w l ∧
      (l.length : Int) = intOf o.vals 20 * max (intOf o.vals 14) 1) ∨
    (textOf o.vals 1 = tCompressed ∧ (∃ n, compress zip w n l = .ok o.points) ∧ intOf o.vals 48 = o.points.length)

theorem writeObj_parts {o : Obj} {b : Bytes} (h : writeObj o = .ok b) : ∃ H K P, packAll layout o.vals = .ok H ∧
    0 ≤ intOf o.vals 50 ∧ 0 ≤ intOf o.vals 51 ∧
    setStr (intOf o.vals 50).toNat o.comment = .ok K ∧ setStr (intOf o.vals 51).toNat o.priv = .ok P ∧
    b = H ++ K ++ P ++ fit (if textOf o.vals 1 ≠ tCompressed then rawSize o.vals else intOf o.vals 48).toNat o.points := by
  unfold writeObj at h
  cases h1 : packAll layout o.vals with
  | error e => rw [h1] at h; cases h
  | ok H =>
    rw [h1] at h
    dsimp only at h
    split at h
    · cases h
    next hn =>
      cases h2 : setStr (intOf o.vals 50).toNat o.comment with
      | error e => rw [h2] at h; cases h
      | ok K =>
        rw [h2] at h
        dsimp only at h
        cases h3 : setStr (intOf o.vals 51).toNat o.priv with
        | error e => rw [h3] at h; cases h
        | ok P =>
          rw [h3] at h
          dsimp only at h
          generalize hN : (if textOf o.vals 1 ≠ tCompressed then rawSize o.vals else intOf o.vals 48) = N at h ⊢
          split at h
          · cases h
          · cases h
            exact ⟨H, K, P, rfl, by omega, by omega, rfl, rfl, rfl⟩

theorem readN_append {a r : Bytes} {n : Int} (h : (a.length : Int) = n) : readN (a ++ r) n = (a, r) := by
  unfold readN
  rw [if_neg (by omega)]
  have : n.toNat = a.length := by omega
  rw [this, List.take_left, List.drop_left]

theorem psize_bits {vs : List Val} {w : Nat} (h : (w = 2 ∧ intOf vs 15 = 16) ∨ (w = 4 ∧ intOf vs 15 = 32)) : psize vs = w := by
  unfold psize
  rcases h with ⟨rfl, h⟩ | ⟨rfl, h⟩ <;> rw [h] <;> rfl

theorem signature_back {vs us : List Val} (h : BackAll vs us) (hl : vs.length = layout.length)
    (hs : textOf vs 1 = tUncompressed ∨ textOf vs 1 = tCompressed) : textOf us 1 = textOf vs 1 := by
  have := back_text h hl (n := 1) (k := .str 12) rfl rfl
  have := trim_eq this
  rcases hs with hs | hs <;> rw [hs] at this ⊢ <;> rw [← this] <;> decide +kernel

theorem readObj_writeObj {unzip : Bytes → Py Bytes} {zip : Bytes → Bytes} (hz : ∀ b, unzip (zip b) = .ok b)
    {o : Obj} {b : Bytes} (h : writeObj o = .ok b) {w : Nat} {l : List Int} (ho : Holds zip o w l) (rest : Bytes) :
    ∃ us k p, BackAll o.vals us ∧ o.vals.length = layout.length ∧ Trim (o.comment.take (intOf o.vals 50).toNat) k ∧
      Trim (o.priv.take (intOf o.vals 51).toNat) p ∧
      readObj unzip (b ++ rest) = match decode us l with
        | .error e => .error e
        | .ok pts => .ok (⟨us, k, p, pts⟩, rest) := by
  obtain ⟨H, K, P, h1, h2, h3, h4, h5, h6⟩ := writeObj_parts h
  obtain ⟨-, g2, -, g4⟩ := packAll_ok h1
  obtain ⟨k1, k2, k3⟩ := setStr_ok h4
  obtain ⟨p1, p2, p3⟩ := setStr_ok h5
  generalize hD : fit (if textOf o.vals 1 ≠ tCompressed then rawSize o.vals else intOf o.vals 48).toNat o.points = D at h6
  obtain ⟨us, g5, g6⟩ := g4 (K ++ (P ++ (D ++ rest)))
  refine ⟨us, stripBy isBlank (ofLatin1 K), stripBy isBlank (ofLatin1 P), g6, g2, ?_, ?_, ?_⟩
  · rw [k3]
    exact trim_pad.1 (strip_trim _)
  · rw [p3]
    exact trim_pad.1 (strip_trim _)
  have i50 : intOf us 50 = intOf o.vals 50 := back_int g6 g2 (k := .i16) rfl rfl
  have i51 : intOf us 51 = intOf o.vals 51 := back_int g6 g2 (k := .i16) rfl rfl
  have i15 : intOf us 15 = intOf o.vals 15 := back_int g6 g2 (k := .i16) rfl rfl
  have i20 : intOf us 20 = intOf o.vals 20 := back_int g6 g2 (k := .i32) rfl rfl
  have i14 : intOf us 14 = intOf o.vals 14 := back_int g6 g2 (k := .u32) rfl rfl
  have hsig : textOf us 1 = textOf o.vals 1 := signature_back g6 g2 (by
    rcases ho.points with ⟨h, _⟩ | ⟨h, _⟩
    · exact .inl h
    · exact .inr h)
  have hps : psize us = w := psize_bits (by rw [i15]; exact ho.bits)
  have hps' : psize o.vals = w := psize_bits ho.bits
  have hw : (if psize us = 2 then 2 else 4) = w := by
    rw [hps]
    rcases ho.bits with ⟨rfl, _⟩ | ⟨rfl, _⟩ <;> rfl
  have hpts : readPoints unzip us (D ++ rest) = .ok (intBytes w l, rest) := by
    rcases ho.points with ⟨hs, hp, hl⟩ | ⟨hs, ⟨n, hc⟩, h48⟩
    · unfold readPoints
      have hne : textOf us 1 ≠ tCompressed := by rw [hsig, hs]; decide
      rw [if_pos hne]
      have hsz : (intBytes w l).length = (rawSize o.vals).toNat := by
        unfold rawSize
        rw [intBytes_length, hps', ← hl]
        omega
      have hDe : D = intBytes w l := by
        rw [← hD, if_pos (by rw [hs]; decide), hp]
        unfold fit
        rw [List.take_of_length_le (by omega)]
        simp [hsz]
      rw [hDe, readN_append]
      rw [i20, i14, hps, intBytes_length]
      push_cast
      rw [hl]
      ring
    · have hDe : D = o.points := by
        rw [← hD, if_neg (by rw [hs]; exact fun h => h rfl), h48]
        unfold fit
        rw [List.take_of_length_le (by omega)]
        simp
      rw [hDe]
      exact compress_read hz hc us (by rw [hsig, hs]) rest
  unfold readObj
  rw [h6, List.append_assoc, List.append_assoc, List.append_assoc, g5]
  dsimp only
  rw [readN_append (by rw [k2, i50]; omega)]
  dsimp only
  rw [readN_append (by rw [p2, i51]; omega)]
  dsimp only
  rw [hpts]
  dsimp only
  rw [hw, fromBuffer_ok (by rcases ho.bits with ⟨rfl, _⟩ | ⟨rfl, _⟩ <;> decide) ho.fits]
  dsimp only
  cases decode us l <;> rfl

end Verif.Lemmas.Digitalsurf
