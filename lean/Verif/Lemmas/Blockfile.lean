import Verif.Model.Blockfile
import Mathlib.Tactic.Ring
import Mathlib.Data.List.Forall2
/-! Lemmas on the blockfile model. -/
namespace Verif.Blockfile
open Verif

/-- Every field of the header fits its width. -/
def Header.Fits (h : Header) : Prop := List.Forall₂ (fun w v => v < 256 ^ w) widths h.vals

theorem ofVals_vals (h : Header) : Header.ofVals h.vals = some h := by cases h; rfl

theorem fits_length {h : Header} (hf : h.Fits) : h.vals.length = 38 := by
  have := hf.length_eq
  simpa [widths] using this.symm

theorem head_length {h : Header} (hf : h.Fits) : (encodeRec false widths h.vals).length = 240 := by
  rw [encodeRec_length false _ _ hf.length_eq]
  decide

theorem fits_update {base h : Header} {navShape : List Nat} {sig : Nat × Nat} {sx sy sdp : Nat}
    (hb : base.Fits) (hh : headerFromSignal base navShape sig sx sy sdp = .ok h) :
    h.Fits ∧ h.off1 = base.off1 ∧ h.off2 = offset2 h.nx h.ny base.off1 ∧ sig.1 = h.dpSz ∧
      sig.2 = h.dpSz ∧ scanSize navShape = .ok (h.nx, h.ny) := by
  unfold headerFromSignal at hh
  split at hh
  · cases hh
  · rename_i nx ny hs
    split at hh
    · cases hh
    · rename_i hsq
      split at hh
      · rename_i hr
        cases hh
        refine ⟨?_, rfl, rfl, rfl, by simpa using hsq, hs⟩
        obtain ⟨h1, h2, h3, h4, h5, h6, h7⟩ := hr
        cases base with
        | mk id magic off1 off2 u dpSz dpRot nx' ny' sr sx' sy' en sdp' cl ac tail =>
        simp only [Header.Fits, Header.vals, widths, List.cons_append, List.nil_append,
          List.forall₂_cons] at hb ⊢
        refine ⟨hb.1, hb.2.1, hb.2.2.1, ?_, hb.2.2.2.2.1, ?_, hb.2.2.2.2.2.2.1, ?_, ?_,
          hb.2.2.2.2.2.2.2.2.2.1, ?_, ?_, hb.2.2.2.2.2.2.2.2.2.2.2.2.1, ?_,
          hb.2.2.2.2.2.2.2.2.2.2.2.2.2.2⟩
        all_goals omega
      · cases hh

/-- The header is read back from any file beginning with it. -/
theorem decodeRec_append (big : Bool) : ∀ (ws vs : List Nat) (f : List UInt8),
    decodeRec big (ws ++ vs) f = decodeRec big ws f ++ decodeRec big vs (f.drop ws.sum)
  | [], vs, f => by simp [decodeRec]
  | w :: ws, vs, f => by
    simp [decodeRec, decodeRec_append big ws vs (f.drop w), List.drop_drop]

theorem readHeader_encode {h : Header} (hf : h.Fits) (rest : List UInt8) :
    readHeader false (encodeRec false widths h.vals ++ rest) = .ok h := by
  have hl := head_length hf
  have hw : widths.sum = 240 := by decide
  have hd := decodeRec_encodeRec false widths h.vals rest hf
  have hsplit : widths = ([6] ++ (widths.drop 1).take 15) ++ List.replicate 22 8 := by decide
  have h2 : decodeRec false [6] (encodeRec false widths h.vals ++ rest) ++
      decodeRec false ((widths.drop 1).take 15) ((encodeRec false widths h.vals ++ rest).drop 6) ++
      decodeRec false (List.replicate 22 8) ((encodeRec false widths h.vals ++ rest).drop 64) =
      h.vals := by
    generalize encodeRec false widths h.vals ++ rest = f at hd
    rw [hsplit, decodeRec_append, decodeRec_append] at hd
    exact hd
  unfold readHeader
  rw [if_neg (by simp [hw, hl]), h2, ofVals_vals]

theorem frameRecord_length (big : Bool) (i : Nat) (p : List UInt8) :
    (frameRecord big i p).length = 6 + p.length := by
  simp [frameRecord]; omega

theorem frameRecords_length (big : Bool) (m : Nat) : ∀ (ps : List (List UInt8)) (i : Nat),
    (∀ p ∈ ps, p.length = m) → (frameRecords big i ps).length = ps.length * (6 + m)
  | [], _, _ => by simp [frameRecords]
  | p :: ps, i, h => by
    have := frameRecords_length big m ps (i + 1) (fun q hq => h q (List.mem_cons_of_mem _ hq))
    simp [frameRecords, frameRecord_length, this, h p (List.mem_cons_self ..), Nat.add_mul]
    omega

theorem frameRecord_drop (big : Bool) (i : Nat) (p : List UInt8) :
    (frameRecord big i p).drop 6 = p := by
  unfold frameRecord
  exact List.drop_left' (by simp)

/-- One complete record at the beginning of the data section. -/
theorem readFrames_cons (m : Nat) (r rest : List UInt8) (hr : r.length = 6 + m) :
    readFrames (6 + m) (r ++ rest) = r.drop 6 :: readFrames (6 + m) rest := by
  have hdiv : (r ++ rest).length / (6 + m) = rest.length / (6 + m) + 1 := by
    rw [List.length_append, hr, Nat.add_comm (6 + m) rest.length,
      Nat.add_div_right _ (by omega)]
  unfold readFrames
  rw [hdiv, List.range_succ_eq_map, List.map_cons, List.map_map]
  congr 1
  · simp [List.take_left' hr]
  · apply List.map_congr_left
    intro i _
    have : (i + 1) * (6 + m) = r.length + i * (6 + m) := by rw [hr]; ring
    simp only [Function.comp, Nat.succ_eq_add_one]
    rw [this, ← List.drop_drop, List.drop_left' rfl]

theorem readFrames_short (m : Nat) (f : List UInt8) (h : f.length < 6 + m) :
    readFrames (6 + m) f = [] := by
  unfold readFrames
  rw [Nat.div_eq_of_lt h]
  rfl

/-- Reading the first bytes of the data section: all complete frames. -/
theorem readFrames_take (big : Bool) (m : Nat) : ∀ (ps : List (List UInt8)) (i k r : Nat),
    (∀ p ∈ ps, p.length = m) → k ≤ ps.length → r < 6 + m →
    readFrames (6 + m) ((frameRecords big i ps).take (k * (6 + m) + r)) = ps.take k
  | [], i, k, r, _, hk, hr => by
    have hk0 : k = 0 := by simpa using hk
    subst hk0
    simp only [frameRecords, List.take_nil]
    exact readFrames_short m [] (by simp)
  | p :: ps, i, 0, r, h, _, hr => by
    rw [List.take_zero]
    apply readFrames_short
    simp only [List.length_take]
    omega
  | p :: ps, i, k + 1, r, h, hk, hr => by
    have hp := h p (List.mem_cons_self ..)
    have hlen : (frameRecord big i p).length = 6 + m := by rw [frameRecord_length, hp]
    have : (k + 1) * (6 + m) + r = (frameRecord big i p).length + (k * (6 + m) + r) := by
      rw [hlen]; ring
    rw [frameRecords, this, List.take_length_add_append, readFrames_cons m _ _ hlen,
      frameRecord_drop, List.take_succ_cons,
      readFrames_take big m ps (i + 1) k r (fun q hq => h q (List.mem_cons_of_mem _ hq))
        (by simpa using hk) hr]

theorem flatten_getElem (m : Nat) : ∀ (ps : List (List UInt8)) (i j : Nat),
    (∀ p ∈ ps, p.length = m) → j < m → ps.flatten[i * m + j]? = (ps[i]?).bind (·[j]?)
  | [], i, j, _, _ => by simp
  | p :: ps, 0, j, h, hj => by
    have hp := h p (List.mem_cons_self ..)
    simp only [List.flatten_cons, Nat.zero_mul, Nat.zero_add]
    rw [List.getElem?_append_left (by omega)]
    simp
  | p :: ps, i + 1, j, h, hj => by
    have hp := h p (List.mem_cons_self ..)
    simp only [List.flatten_cons]
    have e : (i + 1) * m + j = m + (i * m + j) := by ring
    rw [List.getElem?_append_right (by omega), e, hp, Nat.add_sub_cancel_left,
      flatten_getElem m ps i j (fun q hq => h q (List.mem_cons_of_mem _ hq)) hj]
    simp

end Verif.Blockfile
