import Verif.Model.Semper
/-!
C32-C34: Semper files.
-/
namespace Verif.Props.Semper
open Verif Verif.Semper
open Verif.Blockfile (utf8)

/-! ### Building blocks -/

theorem splitLens_flatten {α : Type} : ∀ {lens : List Nat} {ls : List (List α)},
    List.Forall₂ (fun n l => l.length = n) lens ls → splitLens lens ls.flatten = ls
  | _, _, .nil => rfl
  | n :: lens, l :: ls, .cons h t => by
    rw [List.flatten_cons, splitLens, List.take_left' h, List.drop_left' h, splitLens_flatten t]

theorem length_shorts (vs : List Int) : (shorts vs).length = 2 * vs.length := by
  unfold shorts
  rw [encodeRec_length _ _ _ (by simp)]
  induction vs with
  | nil => rfl
  | cons v vs ih => rw [List.length_cons, List.replicate_succ, List.sum_cons, ih]; omega

theorem readShorts_shorts {vs : List Int} (h : vs.all fits16 = true) (rest : List UInt8) :
    readShorts vs.length (shorts vs ++ rest) = vs := by
  unfold readShorts shorts
  rw [decodeRec_encodeRec]
  · rw [List.map_map]
    conv_rhs => rw [← List.map_id vs]
    apply List.map_congr_left
    intro v hv
    have := List.all_eq_true.1 h v hv
    simp only [fits16, Bool.and_eq_true, decide_eq_true_eq] at this
    exact toSigned_ofSigned (by norm_num; omega) (by norm_num; omega)
  · clear h
    induction vs with
    | nil => exact .nil
    | cons v vs ih => exact .cons (ofSigned_lt 2 v) ih

theorem length_textField {n : Nat} {s : List Char} (h : s.length ≤ n) :
    (textField n s).length = n := by
  simp only [textField, List.length_append, List.length_map, List.length_replicate]; omega

theorem length_packFloat (b : Nat) : (packFloat b).length = 4 := by simp [packFloat]

theorem chars_map (s : List Char) : chars (s.map fun c => (c.toNat : Int)) = some s := by
  unfold chars
  rw [if_pos]
  · congr 1
    rw [List.map_map]
    conv_rhs => rw [← List.map_id s]
    apply List.map_congr_left
    intro c _
    simp
  · simp

theorem chars_take (n : Nat) (s : List Char) :
    chars (takeInt (s.length : Int) (textField n s)) = some s := by
  unfold takeInt
  rw [if_pos (by omega), textField, List.take_left' (by simp), chars_map]

theorem chars_textField (n : Nat) (s : List Char) :
    chars (textField n s) = some (s ++ List.replicate (n - s.length) (Char.ofNat 0)) := by
  have : textField n s =
      (s ++ List.replicate (n - s.length) (Char.ofNat 0)).map fun c => (c.toNat : Int) := by
    rw [List.map_append, List.map_replicate]; rfl
  rw [this, chars_map]

theorem noNul_pad {s : List Char} (h : ∀ c ∈ s, c ≠ Char.ofNat 0) (n : Nat) :
    noNul (s ++ List.replicate n (Char.ofNat 0)) = s := by
  unfold noNul
  rw [List.filter_append, List.filter_eq_self.2 (by simpa using h), List.filter_replicate]
  simp

theorem unpack_pack {b : Nat} (h : b < 256 ^ 4) : unpackFloat (packFloat b) = some b := by
  unfold unpackFloat packFloat
  rw [if_pos]
  · rw [List.map_map]
    have : (leBytes 4 b).map ((fun v : Int => UInt8.ofNat v.toNat) ∘ fun b : UInt8 => (b.toNat : Int))
        = leBytes 4 b := by
      conv_rhs => rw [← List.map_id (leBytes 4 b)]
      apply List.map_congr_left
      intro c _
      simp
    rw [this, leVal_leBytes h]
  · simp only [List.all_map, List.all_eq_true]
    intro c _
    have := c.toNat_lt
    simp; omega

/-- A size whose middle byte is below 128 survives. -/
theorem sizeFrom_parts {v : Int} (h : v % 65536 < 32768) :
    sizeFrom (v / 65536) (lowParts v) = v := by
  unfold sizeFrom lowParts
  simp only [List.headD_cons, List.getD_cons_succ, List.getD_cons_zero]
  rw [toSigned_ofSigned (by norm_num; omega) (by norm_num; omega)]
  omega

/-! ### The label -/

/-- A number of 16 bits with sign. -/
def Short (v : Int) : Prop := -32768 ≤ v ∧ v < 32768

instance (v : Int) : Decidable (Short v) := inferInstanceAs (Decidable (_ ∧ _))

private theorem Short.fits {v : Int} (h : Short v) : fits16 v = true := by
  unfold Short at h; simp [fits16]; omega

/-- An image all of whose label values can be stored. -/
structure Storable (im : Image) (title : List Char) : Prop where
  title_eq : im.title = some title
  title_len : title.length ≤ 144
  title_ascii : ∀ c ∈ title, 0 < c.toNat ∧ c.toNat < 128
  ncol : im.ncol < 32768
  nrow : im.nrow < 32768
  nlay : im.nlay < 32768
  center : ∀ c ∈ [im.center.1, im.center.2.1, im.center.2.2],
    0 ≤ c ∧ c < 2 ^ 31 ∧ c % 65536 < 32768
  nums : ∀ v ∈ [im.iclass, im.iwp, im.ipltyp], Short v
  date_len : im.date.length = 6
  date : ∀ v ∈ im.date.modifyHead (· - 1900), Short v
  range_len : im.rangeText.length ≤ 27
  range : ∀ c ∈ im.rangeText, c.toNat < 32768
  unit_len : (im.units.1.getD []).length ≤ 4
  unit : ∀ c ∈ im.units.1.getD [], 0 < c.toNat ∧ c.toNat < 32768
  scales : ∀ b ∈ [im.scales.1, im.scales.2.1, im.scales.2.2], b < 256 ^ 4
  offsets : ∀ b ∈ [im.offsets.1, im.offsets.2.1, im.offsets.2.2], b < 256 ^ 4

/-- The label expected for an image. -/
def expectedLabel (im : Image) (title : List Char) : Label :=
  { ncol := im.ncol, nrow := im.nrow, nlay := im.nlay, center := im.center,
    iclass := im.iclass, iform := im.iform, iwp := im.iwp, date := im.date,
    range := im.rangeText, ipltyp := im.ipltyp, real := true,
    scales := im.scales, offsets := im.offsets, title := title,
    units := (im.units.1.getD [], im.units.1.getD [], im.units.1.getD []) }

theorem nul_ne {c : Char} (h : 0 < c.toNat) : c ≠ Char.ofNat 0 := by
  rintro rfl
  exact absurd h (by decide)

theorem modifyHead_sub_add (l : List Int) :
    (l.modifyHead (· - 1900)).modifyHead (· + 1900) = l := by
  cases l with
  | nil => rfl
  | cons a l => simp [List.modifyHead]

theorem decodeLabel_labelFields {im : Image} {title : List Char} (h : Storable im title) :
    decodeLabel (labelFields im title) = some (expectedLabel im title) := by
  have hs := h.scales
  have ho := h.offsets
  have hc := h.center
  simp only [List.forall_mem_cons] at hs ho hc
  have h6 : chars (textField 6 ['S', 'e', 'm', 'p', 'e', 'r']) =
      some ['S', 'e', 'm', 'p', 'e', 'r'] := by decide +kernel
  have hr : ¬ ((im.rangeText.length : Int) = 255) := by have := h.range_len; omega
  have hncol := h.ncol
  have hnrow := h.nrow
  have hnlay := h.nlay
  unfold decodeLabel labelFields
  simp only [List.getD_cons_zero, List.getD_cons_succ, List.headD_cons, h6, hr, if_false, ne_eq,
    not_true_eq_false, chars_take, chars_textField, unpack_pack hs.1, unpack_pack hs.2.1,
    unpack_pack hs.2.2.1, unpack_pack ho.1, unpack_pack ho.2.1, unpack_pack ho.2.2.1,
    Option.bind_eq_bind, Option.bind_some, modifyHead_sub_add,
    noNul_pad (fun c hc => nul_ne (h.unit c hc).1),
    sizeFrom_parts (show (im.ncol : Int) % 65536 < 32768 by omega),
    sizeFrom_parts (show (im.nrow : Int) % 65536 < 32768 by omega),
    sizeFrom_parts (show (im.nlay : Int) % 65536 < 32768 by omega),
    sizeFrom_parts hc.1.2.2, sizeFrom_parts hc.2.1.2.2, sizeFrom_parts hc.2.2.1.2.2]
  rfl

theorem labelLens_ok {im : Image} {title : List Char} (h : Storable im title) :
    List.Forall₂ (fun n (l : List Int) => l.length = n) labelLens (labelFields im title) := by
  have hd : (im.date.modifyHead (· - 1900)).length = 6 := by simp [h.date_len]
  have hu := h.unit_len
  unfold labelLens labelFields
  refine .cons rfl (.cons rfl (.cons rfl (.cons rfl (.cons rfl (.cons rfl (.cons rfl (.cons rfl
    (.cons rfl (.cons rfl (.cons hd (.cons rfl (.cons (length_textField h.range_len) (.cons rfl
    (.cons rfl (.cons rfl (.cons rfl (.cons rfl (.cons rfl (.cons rfl (.cons rfl (.cons rfl
    (.cons rfl (.cons (length_packFloat _) (.cons (length_packFloat _) (.cons (length_packFloat _)
    (.cons (length_packFloat _) (.cons (length_packFloat _) (.cons (length_packFloat _)
    (.cons (length_packFloat _) (.cons (length_packFloat _) (.cons rfl
    (.cons (length_textField h.title_len) (.cons (length_textField hu) (.cons (length_textField hu)
    (.cons (length_textField hu) .nil)))))))))))))))))))))))))))))))))))

theorem length_flatten_of {α : Type} : ∀ {lens : List Nat} {ls : List (List α)},
    List.Forall₂ (fun n l => l.length = n) lens ls → ls.flatten.length = lens.sum
  | _, _, .nil => rfl
  | n :: lens, l :: ls, .cons h t => by
    rw [List.flatten_cons, List.length_append, h, length_flatten_of t, List.sum_cons]

theorem length_label {im : Image} {title : List Char} (h : Storable im title) :
    (labelFields im title).flatten.length = 256 := by
  rw [length_flatten_of (labelLens_ok h)]; rfl

theorem fits16_textField {n : Nat} {s : List Char} (h : ∀ c ∈ s, c.toNat < 32768) :
    ∀ v ∈ textField n s, fits16 v = true := by
  intro v hv
  simp only [textField, List.mem_append, List.mem_map, List.mem_replicate] at hv
  rcases hv with ⟨c, hc, rfl⟩ | ⟨-, rfl⟩
  · have := h c hc
    simp [fits16]; omega
  · rfl

theorem fits16_packFloat (b : Nat) : ∀ v ∈ packFloat b, fits16 v = true := by
  intro v hv
  simp only [packFloat, List.mem_map] at hv
  obtain ⟨c, -, rfl⟩ := hv
  have := c.toNat_lt
  simp [fits16]; omega

theorem fits16_lowParts (v : Int) : ∀ x ∈ lowParts v, fits16 x = true := by
  intro x hx
  simp only [lowParts, List.mem_cons, List.not_mem_nil, or_false] at hx
  rcases hx with rfl | rfl <;> simp [fits16] <;> omega

theorem fits16_high {v : Int} (h1 : 0 ≤ v) (h2 : v < 2 ^ 31) : ∀ x ∈ [v / 65536], fits16 x = true := by
  intro x hx
  simp only [List.mem_cons, List.not_mem_nil, or_false] at hx
  subst hx
  simp [fits16]; omega

theorem fits16_one {v : Int} (h : fits16 v = true) : ∀ x ∈ [v], fits16 x = true := by
  intro x hx
  simp only [List.mem_cons, List.not_mem_nil, or_false] at hx
  subst hx
  exact h

theorem iform_lt {n w : Nat} (h : itemsize n = some w) : n ≤ 4 ∧ 0 < w ∧ w ≤ 8 := by
  unfold itemsize at h
  split at h <;> simp at h <;> subst h <;> decide

theorem label_fits {im : Image} {title : List Char} (h : Storable im title) {w : Nat}
    (hw : itemsize im.iform = some w) : (labelFields im title).flatten.all fits16 = true := by
  rw [List.all_eq_true]
  intro v hv
  rw [List.mem_flatten] at hv
  obtain ⟨l, hl, hv⟩ := hv
  have hc := h.center
  have hn := h.nums
  have hi := (iform_lt hw).1
  simp only [List.forall_mem_cons] at hc hn
  have hncol := h.ncol
  have hnrow := h.nrow
  have hnlay := h.nlay
  have ht := h.title_len
  have hr := h.range_len
  have hu : ∀ c ∈ im.units.1.getD [], c.toNat < 32768 := fun c hc => (h.unit c hc).2
  revert v
  have key : ∀ l ∈ labelFields im title, ∀ v ∈ l, fits16 v = true := by
    unfold labelFields
    simp only [List.forall_mem_cons (p := fun l : List Int => ∀ v ∈ l, fits16 v = true)]
    refine ⟨by decide, fits16_lowParts _, fits16_lowParts _, fits16_lowParts _, fits16_lowParts _,
      fits16_lowParts _, fits16_lowParts _, fits16_one hn.1.fits,
      fits16_one (by simp [fits16]; omega), fits16_one hn.2.1.fits, fun v hv => (h.date v hv).fits,
      fits16_one (by simp [fits16]; omega), fits16_textField h.range, fits16_one hn.2.2.1.fits,
      fits16_high (by omega) (by omega), fits16_high (by omega) (by omega),
      fits16_high (by omega) (by omega), fits16_high hc.1.1 hc.1.2.1,
      fits16_high hc.2.1.1 hc.2.1.2.1, fits16_high hc.2.2.1.1 hc.2.2.1.2.1, by decide, by decide,
      by decide, fits16_packFloat _, fits16_packFloat _, fits16_packFloat _, fits16_packFloat _,
      fits16_packFloat _, fits16_packFloat _, fits16_packFloat _, fits16_packFloat _,
      fits16_one (by simp [fits16]; omega),
      fits16_textField (fun c hc => by have := h.title_ascii c hc; omega),
      fits16_textField hu, fits16_textField hu, fits16_textField hu, by simp⟩
  exact fun v hv => key l hl v hv

theorem getLabel_ok {im : Image} {title : List Char} (h : Storable im title) {w : Nat}
    (hw : itemsize im.iform = some w) : getLabel im = .ok (labelFields im title) := by
  unfold getLabel
  rw [h.title_eq]
  dsimp only
  rw [if_neg, if_pos (label_fits h hw)]
  have h1 := h.date_len
  have h2 := h.range_len
  have h3 := h.title_len
  have h4 := h.unit_len
  omega

theorem length_record (n : Nat) (bs : List UInt8) : (record n bs).length = bs.length + 8 := by
  simp [record]; omega

theorem record_take4 (n : Nat) (bs rest : List UInt8) :
    (record n bs ++ rest).take 4 = leBytes 4 n := by
  unfold record
  rw [List.append_assoc, List.append_assoc, List.take_left' (leBytes_length 4 n)]

theorem record_drop4 (n : Nat) (bs rest : List UInt8) :
    (record n bs ++ rest).drop 4 = bs ++ (leBytes 4 n ++ rest) := by
  unfold record
  rw [List.append_assoc, List.append_assoc, List.drop_left' (leBytes_length 4 n)]

theorem readLabel_record {im : Image} {title : List Char} (h : Storable im title) {w : Nat}
    (hw : itemsize im.iform = some w) (rest : List UInt8) :
    readLabel (record 512 (shorts (labelFields im title).flatten) ++ rest) =
      (some (expectedLabel im title), rest) := by
  have hl : (shorts (labelFields im title).flatten).length = 512 := by
    rw [length_shorts, length_label h]
  have hr : (record 512 (shorts (labelFields im title).flatten)).length = 520 := by
    rw [length_record, hl]
  have hd : (record 512 (shorts (labelFields im title).flatten) ++ rest).drop 516 =
      leBytes 4 512 ++ rest := by
    rw [show (516 : Nat) = 4 + 512 from rfl, ← List.drop_drop, record_drop4, List.drop_left' hl]
  unfold readLabel
  rw [if_neg (by rw [List.length_append, hr]; omega), record_drop4]
  have e : readShorts 256 (shorts (labelFields im title).flatten ++ (leBytes 4 512 ++ rest)) =
      (labelFields im title).flatten := by
    rw [← length_label h]
    exact readShorts_shorts (label_fits h hw) _
  rw [e, splitLens_flatten (labelLens_ok h), decodeLabel_labelFields h]
  dsimp only
  rw [if_neg (by rw [List.length_append, hr]; omega), hd,
    List.take_left' (leBytes_length 4 512), record_take4, if_pos rfl, List.drop_left' hr]

/-! ### The title -/

theorem utf8_ascii {c : Char} (h : c.toNat < 128) : utf8 c = [UInt8.ofNat c.toNat] := by
  unfold utf8
  simp only
  rw [if_pos h]

theorem readTitle_record {title : List Char} (h : ∀ c ∈ title, 0 < c.toNat ∧ c.toNat < 128)
    (hl : title.length < 256 ^ 4) (rest : List UInt8) :
    readTitle title.length (record title.length (title.flatMap utf8) ++ rest) =
      .ok (title, rest) := by
  have he : title.flatMap utf8 = title.map fun c => UInt8.ofNat c.toNat := by
    clear hl
    induction title with
    | nil => rfl
    | cons c title ih =>
      rw [List.flatMap_cons, utf8_ascii (h c (List.mem_cons_self ..)).2,
        ih (fun d hd => h d (List.mem_cons_of_mem _ hd))]
      rfl
  have hlen : (title.flatMap utf8).length = title.length := by rw [he, List.length_map]
  have hb : ∀ c ∈ title, (UInt8.ofNat c.toNat).toNat = c.toNat := by
    intro c hc
    have := h c hc
    rw [UInt8.toNat_ofNat']
    omega
  unfold readTitle
  rw [if_neg (by rw [List.length_append, length_record]; omega), record_take4, record_drop4,
    leVal_leBytes hl, if_neg (by simp), List.take_left' hlen, List.drop_left' hlen]
  dsimp only
  rw [if_neg, if_neg (by simp), List.take_left' (leBytes_length _ _), leVal_leBytes hl,
    if_neg (by simp), List.drop_left' (leBytes_length _ _)]
  · have hf : (title.flatMap utf8).filter (· ≠ 0) = title.flatMap utf8 := by
      rw [List.filter_eq_self]
      intro b hbm
      rw [he, List.mem_map] at hbm
      obtain ⟨c, hc, rfl⟩ := hbm
      have h1 := hb c hc
      have h2 := (h c hc).1
      simp only [ne_eq, decide_not, Bool.not_eq_eq_eq_not, Bool.not_true, decide_eq_false_iff_not]
      intro e
      rw [e] at h1
      simp at h1
      omega
    rw [hf, he, List.map_map]
    congr 2
    conv_rhs => rw [← List.map_id title]
    apply List.map_congr_left
    intro c hc
    simp only [Function.comp, hb c hc, id, Char.ofNat_toNat]
  · intro hh
    rw [List.any_eq_true] at hh
    obtain ⟨b, hbm, hb2⟩ := hh
    rw [he, List.mem_map] at hbm
    obtain ⟨c, hc, rfl⟩ := hbm
    have h1 := hb c hc
    have h2 := (h c hc).2
    simp only [decide_eq_true_eq, UInt8.le_iff_toNat_le] at hb2
    rw [h1] at hb2
    have : (128 : UInt8).toNat = 128 := rfl
    omega

/-! ### Rows -/

theorem length_items (big : Bool) (w : Nat) (row : List Nat) :
    (row.flatMap (fieldBytes big w)).length = w * row.length := by
  induction row with
  | nil => simp
  | cons v row ih =>
    rw [List.flatMap_cons, List.length_append, fieldBytes_length, ih, List.length_cons]; ring

theorem decode_items {big : Bool} {w : Nat} : ∀ {row : List Nat} (rest : List UInt8),
    (∀ v ∈ row, v < 256 ^ w) → (big = false ∨ w = 1) →
    decodeRec false (List.replicate row.length w) (row.flatMap (fieldBytes big w) ++ rest) = row
  | [], _, _, _ => rfl
  | v :: row, rest, h, hb => by
    have hv := h v (List.mem_cons_self ..)
    rw [List.length_cons, List.replicate_succ, decodeRec, List.flatMap_cons, List.append_assoc,
      List.take_left' (fieldBytes_length ..), List.drop_left' (fieldBytes_length ..),
      decode_items rest (fun u hu => h u (List.mem_cons_of_mem _ hu)) hb]
    congr 1
    rcases hb with rfl | rfl
    · exact fieldVal_fieldBytes false w v hv
    · have : fieldBytes big 1 v = fieldBytes false 1 v := by
        cases big
        · rfl
        · simp [fieldBytes, beBytes, leBytes]
      rw [this]
      exact fieldVal_fieldBytes false 1 v hv

/-- A record holding a row, and possibly some more bytes, is read as the row. -/
theorem readRow_record {big : Bool} {w : Nat} {row : List Nat} {pad rest : List UInt8}
    (hw : 0 < w) (h : ∀ v ∈ row, v < 256 ^ w) (hb : big = false ∨ w = 1)
    (hpad : pad.length % w = 0) (hn : w * row.length + pad.length < 256 ^ 4) :
    readRow w row.length
      (record (w * row.length + pad.length) (row.flatMap (fieldBytes big w) ++ pad) ++ rest) =
      .ok (row, rest) := by
  obtain ⟨k, hk⟩ := Nat.dvd_of_mod_eq_zero hpad
  have hcount : (w * row.length + pad.length) / w = row.length + k := by
    rw [hk, ← Nat.mul_add, Nat.mul_div_cancel_left _ hw]
  have hlen : (row.flatMap (fieldBytes big w) ++ pad).length = (row.length + k) * w := by
    rw [List.length_append, length_items, hk]; ring
  have hdec : (decodeRec false (List.replicate (row.length + k) w)
      (row.flatMap (fieldBytes big w) ++ pad ++
        (leBytes 4 (w * row.length + pad.length) ++ rest))).take row.length = row := by
    have key : ∀ (n k : Nat) (f : List UInt8),
        (decodeRec false (List.replicate (n + k) w) f).take n =
        decodeRec false (List.replicate n w) f := by
      intro n k
      induction n with
      | zero => intro f; simp [decodeRec]
      | succ n ih =>
        intro f
        rw [Nat.succ_add, List.replicate_succ, List.replicate_succ, decodeRec, decodeRec,
          List.take_succ_cons, ih]
    rw [key, List.append_assoc, decode_items _ h hb]
  unfold readRow
  rw [record_take4, leVal_leBytes hn, record_drop4]
  dsimp only
  rw [hcount, if_neg, hdec, if_neg (by simp), List.drop_left' hlen, List.take_left' (leBytes_length ..),
    leVal_leBytes hn, if_neg (by simp), if_pos rfl, List.drop_left' (leBytes_length ..)]
  rw [List.length_append, length_record]
  simp only [List.length_append] at hlen ⊢
  simp only [leBytes_length]
  omega

theorem readRows_rows {big : Bool} {iform w ncol : Nat} (hw : 0 < w)
    (hb : (big && isInteger iform) = false ∨ w = 1) (hn : w * ncol < 256 ^ 4) :
    ∀ {rows : List (List Nat)}, (∀ r ∈ rows, r.length = ncol ∧ ∀ v ∈ r, v < 256 ^ w) →
    readRows w ncol rows.length (rows.flatMap (rowBytes iform w ncol big)) = .ok rows
  | [], _ => rfl
  | r :: rows, h => by
    obtain ⟨h1, h2⟩ := h r (List.mem_cons_self ..)
    have ih := readRows_rows hw hb hn (fun s hs => h s (List.mem_cons_of_mem _ hs))
    have := readRow_record (pad := []) (rest := rows.flatMap (rowBytes iform w ncol big))
      hw h2 hb rfl (by simpa [h1] using hn)
    simp only [List.length_nil, Nat.add_zero, List.append_nil, h1] at this
    rw [List.length_cons, readRows, List.flatMap_cons, rowBytes, this]
    dsimp only
    rw [ih]

/-! ### The file -/

/-- The pixels fit the format and the number of rows is right; integer arrays are in the byte order
of the machine (little-endian). -/
structure Pixels (im : Image) (w : Nat) : Prop where
  size : itemsize im.iform = some w
  order : im.big = false ∨ isInteger im.iform = false ∨ w = 1
  count : im.rows.length = im.nlay * im.nrow
  rows : ∀ r ∈ im.rows, r.length = im.ncol ∧ ∀ v ∈ r, v < 256 ^ w

theorem load_save {im : Image} {title : List Char} {w : Nat} (h : Storable im title)
    (hp : Pixels im w) :
    ∃ f, save im = .ok f ∧ load f = .ok
      { title := title, label := some (expectedLabel im title), iclass := im.iclass,
        iform := im.iform, nlay := im.nlay, nrow := im.nrow, ncol := im.ncol, rows := im.rows } := by
  obtain ⟨hi, hw0, hw8⟩ := iform_lt hp.size
  have hncol := h.ncol
  have hnrow := h.nrow
  have hnlay := h.nlay
  have ht := h.title_len
  have hn := h.nums
  simp only [List.forall_mem_cons] at hn
  have hhead : (headerFields im title).all fits16 = true := by
    rw [List.all_eq_true]
    simp only [headerFields, List.forall_mem_cons]
    have := hn.1
    refine ⟨?_, ?_, ?_, hn.1.fits, ?_, ?_, by simp⟩ <;> simp [fits16] <;> omega
  have hsave : save im = .ok (record 12 (shorts (headerFields im title)) ++
      ((if title = [] then [] else record title.length (title.flatMap utf8)) ++
        (record 512 (shorts (labelFields im title).flatten) ++
          im.rows.flatMap (rowBytes im.iform w im.ncol im.big)))) := by
    unfold save
    rw [hp.size]
    dsimp only
    rw [h.title_eq]
    simp only [Option.getD_some]
    rw [if_pos hhead, getLabel_ok h hp.size]
  refine ⟨_, hsave, ?_⟩
  have hlen : (shorts (headerFields im title)).length = 12 := by rw [length_shorts]; rfl
  have hrec : (record 12 (shorts (headerFields im title))).length = 20 := by
    rw [length_record, hlen]
  generalize hrest : ((if title = [] then [] else record title.length (title.flatMap utf8)) ++
        (record 512 (shorts (labelFields im title).flatten) ++
          im.rows.flatMap (rowBytes im.iform w im.ncol im.big))) = rest
  have h16 : (record 12 (shorts (headerFields im title)) ++ rest).drop 16 = leBytes 4 12 ++ rest := by
    rw [show (16 : Nat) = 4 + 12 from rfl, ← List.drop_drop, record_drop4, List.drop_left' hlen]
  have h6 : readShorts 6 (shorts (headerFields im title) ++ (leBytes 4 12 ++ rest)) =
      headerFields im title := readShorts_shorts hhead _
  unfold load
  rw [if_neg (by rw [List.length_append, hrec]; omega), record_take4,
    leVal_leBytes (by decide), if_neg (by simp), h16, List.take_left' (leBytes_length ..),
    leVal_leBytes (by decide), if_neg (by simp), record_drop4, h6, List.drop_left' hrec]
  unfold headerFields
  dsimp only
  rw [if_neg (show ¬ (im.iform : Int) < 0 by omega), Int.toNat_natCast, hp.size]
  dsimp only
  unfold loadRest
  have e1 : ((21000 + (title.length : Int)) % 10000 % 1000).toNat = title.length := by omega
  have e2 : ¬ ((21000 + (title.length : Int)) % 10000 / 1000 = 0) := by omega
  have hta : (if title.length = 0 then .ok ([], rest) else readTitle title.length rest :
      Py (List Char × List UInt8)) = .ok (title,
        record 512 (shorts (labelFields im title).flatten) ++
          im.rows.flatMap (rowBytes im.iform w im.ncol im.big)) := by
    subst hrest
    by_cases hnil : title = []
    · subst hnil; rfl
    · rw [if_neg (by simpa using hnil), if_neg hnil,
        readTitle_record h.title_ascii (by show _ < 4294967296; omega)]
  dsimp only
  rw [e1, hta]
  dsimp only
  rw [if_neg e2, readLabel_record h hp.size]
  have hb : (im.big && isInteger im.iform) = false ∨ w = 1 := by
    rcases hp.order with h1 | h1 | h1
    · left; simp [h1]
    · left; simp [h1]
    · right; exact h1
  have hprod : w * im.ncol < 256 ^ 4 := by
    calc w * im.ncol ≤ 8 * 32768 := Nat.mul_le_mul hw8 (by omega)
      _ < 256 ^ 4 := by decide
  have hr := readRows_rows hw0 hb hprod hp.rows
  rw [hp.count] at hr
  have hd : dims (some (expectedLabel im title)) im.nlay im.nrow im.ncol =
      ((im.nlay : Int), (im.nrow : Int), (im.ncol : Int)) := rfl
  have hneg : ¬ ((im.nlay : Int) < 0 ∨ (im.nrow : Int) < 0 ∨ (im.ncol : Int) < 0) := by omega
  dsimp only
  rw [hd]
  unfold loadData
  dsimp only
  rw [if_neg hneg, Int.toNat_natCast, Int.toNat_natCast, Int.toNat_natCast, hr]

/-! ### C32 -/

/-- C32, partial: sizes, integer values, date, range text and title read back as written. Missing
(see the theorems below): titles that are not ASCII text of at most 144 characters, and sizes of
32768 and more. -/
theorem C32_label_partial {im : Image} {title : List Char} {w : Nat} (h : Storable im title)
    (hp : Pixels im w) :
    ∃ f l lab, save im = .ok f ∧ load f = .ok l ∧ l.label = some lab ∧
      l.title = title ∧ lab.title = title ∧
      l.nlay = im.nlay ∧ l.nrow = im.nrow ∧ l.ncol = im.ncol ∧
      lab.nlay = im.nlay ∧ lab.nrow = im.nrow ∧ lab.ncol = im.ncol ∧
      lab.center = im.center ∧ l.iclass = im.iclass ∧ l.iform = im.iform ∧
      lab.iclass = im.iclass ∧ lab.iform = im.iform ∧ lab.iwp = im.iwp ∧
      lab.ipltyp = im.ipltyp ∧ lab.date = im.date ∧ lab.range = im.rangeText := by
  obtain ⟨f, h1, h2⟩ := load_save h hp
  exact ⟨f, _, _, h1, h2, rfl, rfl, rfl, rfl, rfl, rfl, rfl, rfl, rfl, rfl, rfl, rfl, rfl, rfl, rfl,
    rfl, rfl, rfl⟩

/-- An image of 2 × 3 bytes in one layer. -/
def sample : Image :=
  { nlay := 1, nrow := 2, ncol := 3, iform := 0, big := false,
    rows := [[1, 2, 3], [254, 255, 0]], title := some ['a', ' ', 'b'], iclass := 1, iwp := 0,
    ipltyp := 248, center := (2, 2, 1), date := [2024, 2, 29, 23, 59, 58],
    rangeText := ['-', '2', ',', '3'], scales := (0x3f000000, 0x3e800000, one),
    offsets := (0, 0x3f800000, 0), units := (some ['n', 'm'], some ['n', 'm'], none) }

theorem sample_storable : Storable sample ['a', ' ', 'b'] :=
  ⟨rfl, by decide, by decide, by decide, by decide, by decide, by decide, by decide, rfl, by decide,
    by decide, by decide, by decide, by decide, by decide, by decide⟩

theorem sample_pixels : Pixels sample 1 := ⟨rfl, by decide, rfl, by decide⟩

/-- A signal without a title cannot be written. -/
theorem C32_fails_no_title : save { sample with title := none } = .error .typeError := by
  decide +kernel

/-- The title "é" is written but the file cannot be read. -/
theorem C32_fails_non_ascii :
    (save { sample with title := some ['é'] } >>= load).toOption = none ∧
      (save { sample with title := some ['é'] }).toOption.isSome := by
  constructor <;> decide +kernel

/-- Sizes of 32768 and more cannot be written, whatever else the image holds. -/
theorem C32_fails_large {im : Image} (h : 32768 ≤ im.ncol) (hf : (itemsize im.iform).isSome) :
    save im = .error .overflowError := by
  obtain ⟨w, hw⟩ := Option.isSome_iff_exists.1 hf
  unfold save
  rw [hw]
  dsimp only
  rw [if_neg]
  simp only [headerFields, List.all_cons, Bool.and_eq_true]
  rintro ⟨h1, -⟩
  simp only [fits16, Bool.and_eq_true, decide_eq_true_eq] at h1
  omega

/-- Titles longer than 144 characters cannot be written. -/
theorem C32_fails_long_title {im : Image} {title : List Char} (ht : im.title = some title)
    (h : 144 < title.length) : ∀ f, save im ≠ .ok f := by
  intro f hf
  unfold save at hf
  split at hf
  · cases hf
  · dsimp only at hf
    split at hf
    · unfold getLabel at hf
      rw [ht] at hf
      dsimp only at hf
      rw [if_pos (by omega)] at hf
      cases hf
    · cases hf

/-- The text of the range of complex data may be too long: the data cannot be written. -/
theorem C32_fails_long_range {im : Image} (h : 27 < im.rangeText.length) : ∀ f, save im ≠ .ok f := by
  intro f hf
  unfold save at hf
  split at hf
  · cases hf
  · dsimp only at hf
    split at hf
    · unfold getLabel at hf
      split at hf
      · rename_i e; split at e
        · cases hf
        · rw [if_pos (by omega)] at e; cases hf
      · rename_i e; split at e
        · cases e
        · rw [if_pos (by omega)] at e; cases e
    · cases hf

/-! ### C33 -/

/-- C33, partial: the pixels read back identical, in all formats and sizes (also odd row lengths).
Missing: big-endian integer arrays. -/
theorem C33_rows_partial {im : Image} {title : List Char} {w : Nat} (h : Storable im title)
    (hp : Pixels im w) :
    ∃ f l, save im = .ok f ∧ load f = .ok l ∧ l.rows = im.rows := by
  obtain ⟨f, h1, h2⟩ := load_save h hp
  exact ⟨f, _, h1, h2, rfl⟩

/-- C33: rows padded by whole items (as Semper writes single bytes in odd number) are read without
the padding. -/
theorem C33_padded_row {w : Nat} {row : List Nat} {pad rest : List UInt8} (hw : 0 < w)
    (h : ∀ v ∈ row, v < 256 ^ w) (hpad : pad.length % w = 0)
    (hn : w * row.length + pad.length < 256 ^ 4) :
    readRow w row.length
      (record (w * row.length + pad.length) (row.flatMap (fieldBytes false w) ++ pad) ++ rest) =
      .ok (row, rest) :=
  readRow_record hw h (.inl rfl) hpad hn

example : readRow 1 3 (record 4 [7, 8, 9, 0] ++ [5]) = .ok ([7, 8, 9], [5]) := by decide

/-- Big-endian integer arrays are written as they are, and read with the bytes swapped. -/
theorem C33_fails_big_endian :
    (save { sample with iform := 1, big := true, rows := [[1, 2, 3], [4, 5, 6]] } >>= load).toOption.map
      Loaded.rows = some [[256, 512, 768], [1024, 1280, 1536]] := by decide +kernel

/-! ### C34 -/

theorem toAxes_back {axes : List Axis} {iform : Nat} {big : Bool} {rows : List (List Nat)}
    {title : List Char} {iclass : Int} {date : List Int} {range : List Char} {im : Image} {w : Nat}
    (him : fromSignal axes iform big rows (some title) iclass date range = .ok im)
    (h : Storable im title) (hp : Pixels im w) (hne : axes ≠ [])
    (unit : List Char) (hu : ∀ a ∈ axes, a.units = some unit) (h1 : ∀ a ∈ axes, a.size ≠ 1) :
    ∃ f l, save im = .ok f ∧ load f = .ok l ∧ toAxes l = axes := by
  obtain ⟨f, hf, hl⟩ := load_save h hp
  refine ⟨f, _, hf, hl, ?_⟩
  clear hl hf hp h
  unfold fromSignal at him
  generalize one = o1 at him
  split at him
  · cases him
  · rename_i hlen
    have him := Except.ok.inj him
    dsimp only at him
    rcases axes with _ | ⟨⟨n, s, o, u⟩, _ | ⟨⟨n', s', o', u'⟩, _ | ⟨⟨n'', s'', o'', u''⟩, _ | ⟨d, t⟩⟩⟩⟩
    · exact absurd rfl hne
    · simp only [List.forall_mem_cons] at hu h1
      subst him
      simp [toAxes, expectedLabel, hu.1, h1.1]
    · simp only [List.forall_mem_cons] at hu h1
      subst him
      simp [toAxes, expectedLabel, hu.1, h1.1, hu.2.1, h1.2.1]
    · simp only [List.forall_mem_cons] at hu h1
      subst him
      simp [toAxes, expectedLabel, hu.1, h1.1, hu.2.1, h1.2.1, hu.2.2.1, h1.2.2.1]
    · exact absurd (by simp) hlen

/-- A signal that can be stored: one to three axes with sizes, scales, offsets and units that fit, and
the rows of its data: as many as the leading axes say, each as long as the last axis. -/
structure GoodSignal (axes : List Axis) (iform : Nat) (big : Bool) (rows : List (List Nat))
    (title : List Char) (iclass : Int) (date : List Int) (range : List Char) (w : Nat) : Prop where
  axes_ne : axes ≠ []
  axes_len : axes.length ≤ 3
  size : ∀ a ∈ axes, a.size < 32768
  scale : ∀ a ∈ axes, a.scale < 256 ^ 4
  offset : ∀ a ∈ axes, a.offset < 256 ^ 4
  unit : ∀ a ∈ axes, (a.units.getD []).length ≤ 4 ∧
    ∀ c ∈ a.units.getD [], 0 < c.toNat ∧ c.toNat < 32768
  title_len : title.length ≤ 144
  title_ascii : ∀ c ∈ title, 0 < c.toNat ∧ c.toNat < 128
  iclass : Short iclass
  date_len : date.length = 6
  date : ∀ v ∈ date.modifyHead (· - 1900), Short v
  range_len : range.length ≤ 27
  range : ∀ c ∈ range, c.toNat < 32768
  item : itemsize iform = some w
  order : big = false ∨ isInteger iform = false ∨ w = 1
  count : rows.length = (axes.dropLast.map Axis.size).prod
  rows : ∀ r ∈ rows, some r.length = axes.getLast?.map Axis.size ∧ ∀ v ∈ r, v < 256 ^ w

theorem center_fits {n : Nat} (h : n < 32768) :
    0 ≤ ((n : Int) / 2 + 1) ∧ ((n : Int) / 2 + 1) < 2 ^ 31 ∧ ((n : Int) / 2 + 1) % 65536 < 32768 := by
  omega

theorem fromSignal_good {axes : List Axis} {iform : Nat} {big : Bool} {rows : List (List Nat)}
    {title : List Char} {iclass : Int} {date : List Int} {range : List Char} {w : Nat}
    (h : GoodSignal axes iform big rows title iclass date range w) :
    ∃ im, fromSignal axes iform big rows (some title) iclass date range = .ok im ∧
      Storable im title ∧ Pixels im w := by
  obtain ⟨hne, hl3, hs, hsc, hof, hun, ht, hta, hic, hdl, hd, hrl, hr, hit, hor, hc, hrow⟩ := h
  unfold fromSignal
  rw [if_neg (by omega)]
  refine ⟨_, rfl, ?_⟩
  have h1 : (1 : Nat) < 32768 := by decide
  have ho : one < 256 ^ 4 := by decide
  have hz : 0 < 256 ^ 4 := by decide
  have hc1 := center_fits h1
  have hip : Short 248 := by decide
  have hiz : Short 0 := by decide
  generalize one = o1 at *
  rcases axes with _ | ⟨⟨n, s, o, u⟩, _ | ⟨⟨n', s', o', u'⟩, _ | ⟨⟨n'', s'', o'', u''⟩, _ | ⟨d, t⟩⟩⟩⟩
  · exact absurd rfl hne
  · simp only [List.forall_mem_cons] at hs hsc hof hun
    have c1 := center_fits hs.1
    constructor
    · constructor <;> simp_all
    · exact ⟨hit, hor, by simpa using hc, fun r hr => by simpa using hrow r hr⟩
  · simp only [List.forall_mem_cons] at hs hsc hof hun
    have c1 := center_fits hs.1
    have c2 := center_fits hs.2.1
    constructor
    · constructor <;> simp_all
    · exact ⟨hit, hor, by simpa using hc, fun r hr => by simpa using hrow r hr⟩
  · simp only [List.forall_mem_cons] at hs hsc hof hun
    have c1 := center_fits hs.1
    have c2 := center_fits hs.2.1
    have c3 := center_fits hs.2.2.1
    constructor
    · constructor <;> simp_all
    · exact ⟨hit, hor, by simpa using hc, fun r hr => by simpa using hrow r hr⟩
  · simp at hl3

/-- C34, partial: axes with one common unit, none of length one, are read back with their own size,
scale, offset and unit, together with the rows of the data. Missing: see the theorems below. -/
theorem C34_axes_partial {axes : List Axis} {iform : Nat} {big : Bool} {rows : List (List Nat)}
    {title : List Char} {iclass : Int} {date : List Int} {range : List Char} {w : Nat}
    (h : GoodSignal axes iform big rows title iclass date range w)
    (unit : List Char) (hu : ∀ a ∈ axes, a.units = some unit) (h1 : ∀ a ∈ axes, a.size ≠ 1) :
    ∃ im f l, fromSignal axes iform big rows (some title) iclass date range = .ok im ∧
      save im = .ok f ∧ load f = .ok l ∧ toAxes l = axes ∧ l.rows = rows := by
  obtain ⟨im, him, hst, hpx⟩ := fromSignal_good h
  obtain ⟨f, l, hf, hl, ha⟩ := toAxes_back him hst hpx h.axes_ne unit hu h1
  obtain ⟨f', l', hf', hl', hr⟩ := C33_rows_partial hst hpx
  rw [hf] at hf'
  cases hf'
  rw [hl] at hl'
  cases hl'
  refine ⟨im, f, l, him, hf, hl, ha, hr.trans ?_⟩
  unfold fromSignal at him
  rw [if_neg (by have := h.axes_len; omega)] at him
  rw [← Except.ok.inj him]

def nm : Option (List Char) := some ['n', 'm']

/-- The axes of an image written and read back. -/
def axesBack (axes : List Axis) (rows : List (List Nat)) : Option (List Axis) :=
  (fromSignal axes 0 false rows (some []) 1 [2024, 2, 29, 23, 59, 58] ['0'] >>= save >>= load).toOption.map
    toAxes

/-- A case meeting the hypotheses. -/
example : axesBack [⟨2, 5, 6, nm⟩, ⟨3, 7, 8, nm⟩] [[1, 2, 3], [4, 5, 6]] =
    some [⟨2, 5, 6, nm⟩, ⟨3, 7, 8, nm⟩] := by decide +kernel

example : GoodSignal [⟨2, 5, 6, nm⟩, ⟨3, 7, 8, nm⟩] 0 false [[1, 2, 3], [4, 5, 6]] [] 1
    [2024, 2, 29, 23, 59, 58] ['0'] 1 := by
  constructor <;> decide +kernel

/-- All axes get the unit of the first. -/
theorem C34_fails_other_unit :
    axesBack [⟨2, 5, 6, nm⟩, ⟨3, 7, 8, some ['e', 'V']⟩] [[1, 2, 3], [4, 5, 6]] =
    some [⟨2, 5, 6, nm⟩, ⟨3, 7, 8, nm⟩] := by decide +kernel

/-- No unit becomes an empty unit. -/
theorem C34_fails_no_unit :
    axesBack [⟨2, 5, 6, none⟩] [[1, 2]] = some [⟨2, 5, 6, some []⟩] := by decide +kernel

/-- A unit of five characters prevents writing. -/
theorem C34_fails_long_unit :
    axesBack [⟨2, 5, 6, some ['c', 'o', 'u', 'n', 't']⟩] [[1, 2]] = none := by decide +kernel

/-- With an axis of length one the others get its scale and offset. -/
theorem C34_fails_length_one :
    axesBack [⟨1, 5, 6, nm⟩, ⟨3, 7, 8, nm⟩] [[1, 2, 3]] = some [⟨3, 5, 6, nm⟩] := by decide +kernel

end Verif.Props.Semper
