import Verif.Spec.Phenom
import Mathlib.Tactic.Ring
import Mathlib.Tactic.NormNum
import Mathlib.Tactic.IntervalCases
/-! Readers of ELID files take back what the layout writes. -/
namespace Verif.Lemmas.Phenom
open Verif.Phenom
open Verif.Spec.Phenom (Eds Common Line Map Times Analysis Image Project listOf leb flag signed count Fits Fits32)

/-- The reader takes exactly these bytes and returns this value. -/
def Reads (p : Rd α) (bs : List UInt8) (a : α) : Prop := ∀ rest, p (bs ++ rest) = .ok (a, rest)

theorem Reads.bind {p : Rd α} {f : α → Rd β} {b1 b2 : List UInt8} {a : α} {b : β} (h1 : Reads p b1 a) (h2 : Reads (f a) b2 b) :
    Reads (p >>= f) (b1 ++ b2) b := by
  intro rest
  show (p (b1 ++ b2 ++ rest) >>= fun x => f x.1 x.2) = _
  rw [List.append_assoc, h1]
  exact h2 rest

theorem Reads.pure (a : α) : Reads (pure a) [] a := fun _ => rfl

theorem Reads.lift {r : Py α} {a : α} (h : r = .ok a) : Reads (lift r) [] a := by
  subst h; exact fun _ => rfl

/-- A step that does not read. -/
theorem Reads.bind0 {p : Rd α} {f : α → Rd β} {b2 : List UInt8} {a : α} {b : β} (h1 : Reads p [] a) (h2 : Reads (f a) b2 b) :
    Reads (p >>= f) b2 b := Reads.bind h1 h2

/-- A step after which nothing is read. -/
theorem Reads.last {p : Rd α} {f : α → Rd β} {b : List UInt8} {a : α} {c : β} (h1 : Reads p b a) (h2 : Reads (f a) [] c) :
    Reads (p >>= f) b c := by
  have := Reads.bind h1 h2
  rwa [List.append_nil] at this

theorem reads_take {bs : List UInt8} {n : Nat} (h : bs.length = n) : Reads (take n) bs bs := by
  intro rest
  subst h
  unfold take
  rw [if_pos (by simp)]
  simp

theorem reads_u8 (b : UInt8) : Reads u8 [b] b.toNat :=
  Reads.last (reads_take rfl) (by
    have : leVal [b] = b.toNat := by simp [leVal]
    rw [this]; exact Reads.pure _)

theorem reads_bool (b : Bool) : Reads bool (flag b) b :=
  Reads.last (reads_take rfl) (by cases b <;> exact Reads.pure _)

theorem reads_u32 {n : Nat} (h : n < 2 ^ 32) : Reads u32 (count n) n :=
  Reads.last (reads_take (by simp [count])) (by
    rw [count, leVal_leBytes (by simpa using h)]; exact Reads.pure _)

theorem reads_i32 {i : Int} (h : Fits32 i) : Reads i32 (signed i) i :=
  Reads.last (reads_take (by simp [signed])) (by
    rw [signed, leVal_leBytes (ofSigned_lt 4 i), toSigned_ofSigned]
    · exact Reads.pure _
    · have := h.1; simp; omega
    · have := h.2; simp; omega)

theorem reads_f64 (env : Env) (x : UInt64) : Reads (f64 env) (Spec.Phenom.float x) (env.f64 x.toNat) :=
  Reads.last (reads_take (by simp [Spec.Phenom.float])) (by
    rw [Spec.Phenom.float, leVal_leBytes (by have := x.toNat_lt; simpa using this)]; exact Reads.pure _)

theorem reads_rep {p : Rd β} {enc : α → List UInt8} {val : α → β} : ∀ {l : List α}, (∀ a ∈ l, Reads p (enc a) (val a)) →
    Reads (rep l.length p) (l.flatMap enc) (l.map val)
  | [], _ => Reads.pure _
  | a :: l, h => by
    show Reads (do let a ← p; let l ← rep l.length p; pure (a :: l)) _ _
    rw [List.flatMap_cons]
    exact Reads.bind (h a List.mem_cons_self) (Reads.last (reads_rep fun b hb => h b (List.mem_cons_of_mem _ hb)) (Reads.pure _))

theorem reads_list {p : Rd β} {enc : α → List UInt8} {val : α → β} {l : List α} (hl : Fits l) (h : ∀ a ∈ l, Reads p (enc a) (val a)) :
    Reads (do let n ← u32; rep n p) (listOf enc l) (l.map val) :=
  Reads.bind (reads_u32 hl) (reads_rep h)

theorem flatMap_single (l : List UInt8) : l.flatMap (fun b => [b]) = l := by
  induction l with
  | nil => rfl
  | cons a l ih => rw [List.flatMap_cons, ih]; rfl

theorem reads_block {bs : List UInt8} (h : Fits bs) : Reads (do let n ← u32; take n) (listOf (fun b => [b]) bs) bs := by
  unfold listOf
  rw [flatMap_single]
  exact Reads.bind (reads_u32 h) (reads_take rfl)

theorem reads_str {env : Env} {bs : List UInt8} {t : Text} (h : Fits bs) (hu : env.utf8 bs = .ok t) :
    Reads (str env) (listOf (fun b => [b]) bs) t := by
  unfold listOf
  rw [flatMap_single]
  exact Reads.bind (reads_u32 h) (Reads.last (reads_take rfl) (Reads.lift hu))

/-! ### Numbers in groups of seven bits -/

theorem or_shift {value n shift : Nat} (h : value < 2 ^ shift) : value ||| (n <<< shift) = value + n * 2 ^ shift := by
  rw [Nat.shiftLeft_eq, Nat.mul_comm n, Nat.or_comm, ← Nat.two_pow_add_eq_or_of_lt h, Nat.add_comm]

theorem low_bit : ∀ n < 128, n &&& 128 = 0 := by decide

theorem high_bit : ∀ n < 128, (128 + n) &&& 128 ≠ 0 := by decide

theorem lebAux_fuel : ∀ (f g n : Nat), n < f → n < g → Spec.Phenom.lebAux f n = Spec.Phenom.lebAux g n
  | f + 1, g + 1, n, hf, hg => by
    unfold Spec.Phenom.lebAux
    split
    · rfl
    · rw [lebAux_fuel f g (n / 128) (by omega) (by omega)]

theorem leb_eq (n : Nat) : leb n = if n < 128 then [UInt8.ofNat n] else UInt8.ofNat (128 + n % 128) :: leb (n / 128) := by
  show Spec.Phenom.lebAux (n + 1) n = _
  unfold Spec.Phenom.lebAux
  split
  · rfl
  · rw [leb, lebAux_fuel n (n / 128 + 1) (n / 128) (by omega) (by omega)]

theorem varAux_leb : ∀ (n value shift : Nat) (rest : List UInt8), value < 2 ^ shift →
    varAux value shift (leb n ++ rest) = .ok (value + n * 2 ^ shift, rest) := by
  intro n
  induction n using Nat.strong_induction_on with
  | _ n ih =>
    intro value shift rest hv
    rw [leb_eq]
    split
    · rename_i hn
      have e : (UInt8.ofNat n).toNat = n := by rw [UInt8.toNat_ofNat']; omega
      show varAux value shift (UInt8.ofNat n :: rest) = _
      unfold varAux
      rw [e]
      have e1 : n &&& 127 = n := by
        have : (127 : Nat) = 2 ^ 7 - 1 := rfl
        rw [this, Nat.and_two_pow_sub_one_eq_mod]; omega
      have e2 : n &&& 128 = 0 := low_bit n hn
      dsimp only
      rw [if_pos e2, e1, or_shift hv]
    · rename_i hn
      have e : (UInt8.ofNat (128 + n % 128)).toNat = 128 + n % 128 := by rw [UInt8.toNat_ofNat']; omega
      show varAux value shift (UInt8.ofNat (128 + n % 128) :: (leb (n / 128) ++ rest)) = _
      unfold varAux
      rw [e]
      have e1 : (128 + n % 128) &&& 127 = n % 128 := by
        have : (127 : Nat) = 2 ^ 7 - 1 := rfl
        rw [this, Nat.and_two_pow_sub_one_eq_mod]; omega
      have e2 : (128 + n % 128) &&& 128 ≠ 0 := high_bit (n % 128) (by omega)
      dsimp only
      have hlt : value ||| ((n % 128) <<< shift) < 2 ^ (shift + 7) := by
        rw [or_shift hv, Nat.pow_add]
        have : n % 128 < 128 := by omega
        have h2 : (n % 128) * 2 ^ shift ≤ 127 * 2 ^ shift := Nat.mul_le_mul_right _ (by omega)
        have : (2 : Nat) ^ 7 = 128 := rfl
        omega
      rw [if_neg e2, e1, ih (n / 128) (by omega) _ _ rest hlt, or_shift hv]
      congr 2
      rw [Nat.pow_add]
      have h1 : n = 128 * (n / 128) + n % 128 := by omega
      conv_rhs => rw [h1]
      ring

theorem reads_varuint (n : Nat) : Reads varuint (leb n) n := by
  intro rest
  have := varAux_leb n 0 0 rest (by norm_num)
  simpa [varuint] using this

theorem reads_cell {n : Nat} (h : n < 2 ^ 32) : Reads cell (leb n) n :=
  Reads.last (reads_varuint n) (by rw [if_pos h]; exact Reads.pure n)

theorem map_id_fun (l : List α) : l.map (fun x => x) = l := by simp

theorem reads_spectrum (env : Env) (o d : UInt64) {l : List Nat} (hl : Fits l) :
    Reads (spectrum env) (Spec.Phenom.float o ++ Spec.Phenom.float d ++ listOf leb l) (env.f64 o.toNat, env.f64 d.toNat, l) := by
  have h := Reads.bind (reads_f64 env o) (f := fun offset => do
    let dispersion ← f64 env
    let n ← u32
    let counts ← rep n varuint
    pure (offset, dispersion, counts)) (Reads.bind (reads_f64 env d) (Reads.bind (reads_u32 hl)
      (Reads.last (reads_rep (enc := leb) (val := fun x => x) fun n _ => reads_varuint n) (Reads.pure _))))
  rw [map_id_fun] at h
  unfold listOf
  rw [List.append_assoc]
  exact h

end Verif.Lemmas.Phenom
