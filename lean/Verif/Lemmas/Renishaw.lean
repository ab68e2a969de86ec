import Verif.Spec.Renishaw
import Verif.Lemmas.Bytes
import Mathlib.Tactic.Linarith
/-! Lemmas for C77: the blocks of a `.wdf` file. -/
namespace Verif.Lemmas.Renishaw
open Verif.Renishaw Verif.Spec.Renishaw Verif.BytesSpec

theorem stored_le (b : Bytes) : stored false b = leVal b := by rw [stored_eq]; rfl

/-- Bytes in a part of a file. -/
theorem chunk_mid {A B C : Bytes} {o w : Nat} (h : o + w ≤ B.length) : chunk (A ++ B ++ C) (A.length + o) w = (B.drop o).take w := by
  unfold chunk
  rw [List.append_assoc, ← List.drop_drop, List.drop_left, List.drop_append_of_le_length (by omega),
    List.take_append_of_le_length (by rw [List.length_drop]; omega)]

theorem number_mid {A B C : Bytes} {o w : Nat} (h : o + w ≤ B.length) :
    number (A ++ B ++ C) (A.length + o) w = .ok (num B o w) := by
  unfold number
  rw [if_pos (by rw [List.length_append, List.length_append]; omega), chunk_mid h]
  unfold num
  rw [stored_le]

/-- A part of a file. -/
structure Within (f : Bytes) (p : Nat) (B : Bytes) : Prop where
  le : p + B.length ≤ f.length
  eq : (f.drop p).take B.length = B

theorem Within.split {f : Bytes} {p : Nat} {B : Bytes} (h : Within f p B) :
    ∃ A C, f = A ++ B ++ C ∧ A.length = p := by
  have := h.le
  refine ⟨f.take p, (f.drop p).drop B.length, ?_, by rw [List.length_take]; omega⟩
  conv_lhs => rw [← List.take_append_drop p f, ← List.take_append_drop B.length (f.drop p), h.eq]
  rw [List.append_assoc]

theorem Within.number {f : Bytes} {p : Nat} {B : Bytes} (h : Within f p B) {o w : Nat} (ho : o + w ≤ B.length) :
    number f (p + o) w = .ok (num B o w) := by
  obtain ⟨A, C, rfl, rfl⟩ := h.split
  exact number_mid ho

theorem Within.chunk {f : Bytes} {p : Nat} {B : Bytes} (h : Within f p B) {o w : Nat} (ho : o + w ≤ B.length) :
    chunk f (p + o) w = (B.drop o).take w := by
  obtain ⟨A, C, rfl, rfl⟩ := h.split
  exact chunk_mid ho

theorem within_mid {A B C : Bytes} : Within (A ++ B ++ C) A.length B :=
  ⟨by rw [List.length_append, List.length_append]; omega,
    by rw [List.append_assoc, List.drop_left, List.take_left]⟩

theorem char_inj {a b : UInt8} (ha : a.toNat < 128) (hb : b.toNat < 128) (h : Char.ofNat a.toNat = Char.ofNat b.toNat) : a = b := by
  have hn : ∀ c : UInt8, c.toNat < 128 → (Char.ofNat c.toNat).toNat = c.toNat := by
    intro c hc
    have hv : c.toNat.isValidChar := Or.inl (by omega)
    simp [Char.ofNat, hv, Char.ofNatAux, Char.toNat]
  have := congrArg Char.toNat h
  rw [hn a ha, hn b hb] at this
  exact UInt8.toNat_inj.mp this

theorem decode_ascii {b : Bytes} (h : ∀ c ∈ b, c.toNat < 128) : decode b = .ok (chars b) := by
  unfold decode chars
  rw [if_pos]
  rw [List.all_eq_true]
  intro c hc
  have := h c hc
  rw [decide_eq_true_eq, UInt8.lt_iff_toNat_lt]
  exact this

theorem blockKey_label {b : Block} (h : b.Ok) : blockKey (chars b.name) b.uid = title b.label b.uid := by
  unfold blockKey title Block.label chars
  congr 1
  rw [List.filter_map, List.filter_filter]
  congr 1
  apply List.filter_congr
  intro c hc
  have h1 := h.ascii c hc
  have h2 : (Char.ofNat c.toNat = ' ') ↔ c = 32 := by
    constructor
    · intro e
      exact char_inj h1 (by decide) (e.trans (by decide))
    · rintro rfl; decide
  simp only [Function.comp, ne_eq, decide_not, h2, Bool.decide_and]
  rw [Bool.and_comm]

theorem title_inj {l l' : Text} {u u' : Nat} (h : title l u = title l' u') : l = l' ∧ u = u' := by
  unfold title at h
  have key : ∀ (a : Text) (n : Nat), ((a ++ '_' :: decChars n).reverse.takeWhile isDigit) = (decChars n).reverse := by
    intro a n
    rw [List.reverse_append, List.reverse_cons, List.append_assoc, List.takeWhile_append_of_pos]
    · rw [List.singleton_append, List.takeWhile_cons_of_neg (by decide), List.append_nil]
    · intro c hc
      exact decChars_digits n c (List.mem_reverse.mp hc)
  have h1 := key l u
  rw [h, key l' u'] at h1
  have h2 : u = u' := (decChars_inj (List.reverse_injective h1)).symm
  subst h2
  exact ⟨List.append_cancel_right h, rfl⟩

/-- The blocks as the code finds them. -/
def place : Nat → List Block → Blocks → Blocks
  | _, [], acc => acc
  | p, b :: bs, acc =>
    place (p + b.bytes.length) bs (setKw (title b.label b.uid) (p + 16, ((16 + b.body.length : Nat) : Int)) acc)

theorem bytes_length {b : Block} (h : b.Ok) : b.bytes.length = 16 + b.body.length := by
  unfold Block.bytes
  have := h.name
  simp only [List.length_append, leBytes_length]
  omega

theorem toSigned_small {n : Nat} (h : n < 2 ^ 63) : toSigned 8 n = (n : Int) := by
  unfold toSigned
  rw [if_pos]
  have : (256 : Nat) ^ 8 = 2 * 2 ^ 63 := by norm_num
  rw [this]
  omega

theorem header_read {pre post : Bytes} {b : Block} (h : b.Ok) :
    decode (chunk (pre ++ b.bytes ++ post) pre.length 4) = .ok (chars b.name) ∧
    number (pre ++ b.bytes ++ post) (pre.length + 4) 4 = .ok b.uid ∧
    number (pre ++ b.bytes ++ post) (pre.length + 8) 8 = .ok (16 + b.body.length) := by
  have hl := bytes_length h
  have hn := h.name
  have hu : b.uid < 256 ^ 4 := by have := h.uid; norm_num at this ⊢; omega
  have hs : 16 + b.body.length < 256 ^ 8 := by have := h.size; norm_num at this ⊢; omega
  refine ⟨?_, ?_, ?_⟩
  · have := chunk_mid (A := pre) (B := b.bytes) (C := post) (o := 0) (w := 4) (by omega)
    rw [Nat.add_zero] at this
    rw [this, List.drop_zero]
    unfold Block.bytes
    rw [List.append_assoc, List.append_assoc, ← hn, List.take_left]
    exact decode_ascii h.ascii
  · rw [number_mid (by omega)]
    unfold num Block.bytes
    rw [stored_le, List.append_assoc, List.append_assoc, ← hn, List.drop_left, hn]
    have : (leBytes 4 b.uid).length = 4 := leBytes_length _ _
    conv_lhs => rw [show (4 : Nat) = (leBytes 4 b.uid).length from this.symm]
    rw [this, List.take_append_of_le_length (by rw [this]), List.take_of_length_le (by rw [this]), leVal_leBytes_mod, Nat.mod_eq_of_lt hu]
  · rw [number_mid (by omega)]
    unfold num Block.bytes
    have h8 : (b.name ++ leBytes 4 b.uid).length = 8 := by rw [List.length_append, leBytes_length]; omega
    have h9 : (leBytes 8 (16 + b.body.length)).length = 8 := leBytes_length _ _
    rw [stored_le, List.append_assoc (b.name ++ leBytes 4 b.uid), ← h8, List.drop_left, h8,
      List.take_append_of_le_length (by rw [h9]), List.take_of_length_le (by rw [h9]), leVal_leBytes_mod, Nat.mod_eq_of_lt hs]

theorem locate_step {f pre post : Bytes} {b : Block} (hf : f = pre ++ b.bytes ++ post) (h : b.Ok) (fuel : Nat) (named : Bool) (acc : Blocks) :
    locate f (fuel + 1) (pre.length : Int) named acc =
      locate f fuel ((pre ++ b.bytes).length : Int) true (setKw (title b.label b.uid) (pre.length + 16, ((16 + b.body.length : Nat) : Int)) acc) := by
  have hl := bytes_length h
  obtain ⟨h1, h2, h3⟩ := header_read (pre := pre) (post := post) h
  rw [locate]
  rw [if_neg (by rw [hf, List.length_append, List.length_append]; omega), if_neg (by omega), Int.toNat_natCast]
  rw [hf, h1, h2, h3]
  dsimp only
  rw [toSigned_small h.size, blockKey_label h]
  congr 1
  rw [List.length_append]
  omega

theorem locate_all : ∀ (bs : List Block) (f pre post : Bytes) (fuel : Nat) (named : Bool) (acc : Blocks),
    f = pre ++ bs.flatMap Block.bytes ++ post → (∀ b ∈ bs, b.Ok) →
    locate f (fuel + bs.length) (pre.length : Int) named acc =
      locate f fuel ((pre ++ bs.flatMap Block.bytes).length : Int) (named || !bs.isEmpty) (place pre.length bs acc)
  | [], f, pre, post, fuel, named, acc, hf, ho => by simp [place]
  | b :: bs, f, pre, post, fuel, named, acc, hf, ho => by
    rw [List.length_cons, ← Nat.add_assoc, locate_step (post := bs.flatMap Block.bytes ++ post)
      (by rw [hf, List.flatMap_cons]; simp only [List.append_assoc]) (ho b List.mem_cons_self),
      locate_all bs f (pre ++ b.bytes) post fuel true _ (by rw [hf, List.flatMap_cons]; simp only [List.append_assoc])
        (fun x hx => ho x (List.mem_cons_of_mem _ hx)), place]
    simp [Nat.add_assoc]

theorem place_other {k : Text} : ∀ (bs : List Block) (p : Nat) (acc : Blocks), (∀ b ∈ bs, title b.label b.uid ≠ k) →
    getKw k (place p bs acc) = getKw k acc
  | [], _, _, _ => rfl
  | b :: bs, p, acc, h => by
    rw [place, place_other bs _ _ (fun x hx => h x (List.mem_cons_of_mem _ hx)), getKw_setKw,
      if_neg (fun e => h b List.mem_cons_self e.symm)]

theorem place_at {l r : List Block} {b : Block} (h : ∀ x ∈ r, title x.label x.uid ≠ title b.label b.uid) :
    ∀ (p : Nat) (acc : Blocks), getKw (title b.label b.uid) (place p (l ++ b :: r) acc) =
      some (p + (l.flatMap Block.bytes).length + 16, ((16 + b.body.length : Nat) : Int)) := by
  induction l with
  | nil =>
    intro p acc
    rw [List.nil_append, place, place_other r _ _ h, getKw_setKw, if_pos rfl]
    simp
  | cons x l ih =>
    intro p acc
    rw [List.cons_append, place, ih, List.flatMap_cons, List.length_append]
    simp only [Nat.add_assoc]

/-- Where the block is found. -/
def Found (f : Bytes) (blocks : Blocks) (k : Text) (body : Bytes) : Prop :=
  ∃ p, getKw k blocks = some (p, ((16 + body.length : Nat) : Int)) ∧ Within f p body

theorem wdf_found {f : Bytes} {bs : List Block} (h : Wdf f bs) {b : Block} (hb : b ∈ bs) :
    Found f (place 0 bs []) (title b.label b.uid) b.body := by
  obtain ⟨l, r, rfl⟩ := List.append_of_mem hb
  have hd := h.distinct
  rw [List.map_append, List.map_cons, List.nodup_append] at hd
  have hr : ∀ x ∈ r, title x.label x.uid ≠ title b.label b.uid := by
    intro x hx e
    obtain ⟨e1, e2⟩ := title_inj e
    have := (List.nodup_cons.mp hd.2.1).1
    apply this
    rw [List.mem_map]
    exact ⟨x, hx, by rw [e1, e2]⟩
  refine ⟨_, place_at hr 0 [], ?_⟩
  have hok := h.ok b hb
  rw [h.bytes]
  have e : (l ++ b :: r).flatMap Block.bytes =
      (l.flatMap Block.bytes ++ (b.name ++ leBytes 4 b.uid ++ leBytes 8 (16 + b.body.length))) ++ b.body ++ r.flatMap Block.bytes := by
    rw [List.flatMap_append, List.flatMap_cons]
    unfold Block.bytes
    simp only [List.append_assoc]
  rw [e]
  have := within_mid (A := l.flatMap Block.bytes ++ (b.name ++ leBytes 4 b.uid ++ leBytes 8 (16 + b.body.length)))
    (B := b.body) (C := r.flatMap Block.bytes)
  rw [List.length_append, List.length_append, List.length_append, leBytes_length, leBytes_length, hok.name] at this
  rw [Nat.zero_add]
  exact this

theorem wdf_missing {f : Bytes} {bs : List Block} (_ : Wdf f bs) {l : Text} {u : Nat} (hn : ∀ b ∈ bs, ¬ (b.label = l ∧ b.uid = u)) :
    getKw (title l u) (place 0 bs []) = none := by
  rw [place_other]
  · rfl
  · intro b hb e
    exact hn b hb (title_inj e)

theorem wdf_locate {f : Bytes} {bs : List Block} (h : Wdf f bs) (fuel : Nat) (hfuel : bs.length < fuel) :
    locate f fuel 0 false [] = some (.ok (place 0 bs [])) := by
  obtain ⟨k, rfl⟩ : ∃ k, fuel = (k + 1) + bs.length := ⟨fuel - 1 - bs.length, by omega⟩
  have := locate_all bs f [] [] (k + 1) false [] (by rw [h.bytes]; simp) h.ok
  rw [List.length_nil, Nat.cast_zero] at this
  rw [this, locate, if_pos (by rw [List.nil_append, h.bytes])]

end Verif.Lemmas.Renishaw
