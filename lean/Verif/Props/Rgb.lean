import Verif.Model.Rgb
import Mathlib.Data.List.Basic
/-! Property C08: RGB conversion. -/
namespace Verif.Props.Rgb
open Verif Verif.Rgb

/-- Number of elements of an array. -/
def size (shape : List Nat) : Nat := shape.foldr (· * ·) 1

/-- An RGB array is well formed: one pixel per index, each with its 3 or 4 channels. -/
def RgbArr.Ok (a : RgbArr) : Prop :=
  a.px.length = size a.shape ∧ ∀ p ∈ a.px, p.length = if a.alpha then 4 else 3

/-- A regular array is well formed: one element per index. -/
def Reg.Ok (a : Reg) : Prop := a.flat.length = size a.shape

theorem size_append (s : List Nat) (k : Nat) : size (s ++ [k]) = size s * k := by
  unfold size
  induction s with
  | nil => simp
  | cons a s ih => simp only [List.cons_append, List.foldr_cons, ih, Nat.mul_assoc]

theorem groups_flatten (k : Nat) : ∀ (px : List (List Nat)), (∀ p ∈ px, p.length = k) →
    groups k px.length px.flatten = px
  | [], _ => rfl
  | p :: px, h => by
    have hp := h p (by simp)
    unfold groups
    rw [List.length_cons, List.range_succ_eq_map, List.map_cons, List.map_map]
    congr 1
    · simp [hp]
    · have ih := groups_flatten k px (fun q hq => h q (by simp [hq]))
      unfold groups at ih
      refine Eq.trans ?_ ih
      apply List.map_congr_left
      intro i _
      simp only [Function.comp, List.flatten_cons]
      rw [show (i + 1) * k = k + i * k by rw [Nat.succ_mul, Nat.add_comm], ← hp, List.drop_append,
        List.drop_eq_nil_of_le (by omega)]
      simp

theorem flatten_groups (k : Nat) : ∀ (n : Nat) (flat : List Nat), flat.length = n * k →
    (groups k n flat).flatten = flat
  | 0, flat, h => by
    have : flat = [] := by simpa using h
    subst this; rfl
  | n + 1, flat, h => by
    unfold groups
    rw [List.range_succ_eq_map, List.map_cons, List.map_map, List.flatten_cons]
    have ih := flatten_groups k n (flat.drop k) (by rw [List.length_drop, h, Nat.succ_mul]; omega)
    unfold groups at ih
    have e : (List.range n).map ((fun i => (flat.drop (i * k)).take k) ∘ Nat.succ) =
        (List.range n).map fun i => ((flat.drop k).drop (i * k)).take k := by
      apply List.map_congr_left
      intro i _
      simp only [Function.comp, List.drop_drop]
      rw [show (i + 1) * k = k + i * k by rw [Nat.succ_mul, Nat.add_comm]]
    rw [e, ih]
    simp

/-- C08. Structured → regular → structured returns the same array. -/
theorem C08_rgb_roundtrip (a : RgbArr) (h : RgbArr.Ok a) :
    ∃ r, rgbx2regular (.rgb a) = .reg r ∧ r.shape = a.shape ++ [if a.alpha then 4 else 3] ∧
      Reg.Ok r ∧ regular2rgbx false r = .ok a := by
  obtain ⟨wide, alpha, shape, px⟩ := a
  obtain ⟨h1, h2⟩ := h
  simp only at h1 h2
  have hg : ∀ k, (∀ p ∈ px, p.length = k) → groups k (size shape) px.flatten = px := by
    intro k hk; rw [← h1]; exact groups_flatten k px hk
  have hl : ∀ k, (∀ p ∈ px, p.length = k) → px.flatten.length = size shape * k := by
    intro k hk
    rw [← h1]
    clear h1 h2 hg
    induction px with
    | nil => simp
    | cons p px ih =>
      rw [List.flatten_cons, List.length_append, List.length_cons, hk p (by simp),
        ih (fun q hq => hk q (by simp [hq])), Nat.succ_mul, Nat.add_comm]
  cases alpha
  · refine ⟨⟨fieldDt wide, shape ++ [3], px.flatten⟩, by simp [rgbx2regular], rfl, ?_, ?_⟩
    · unfold Reg.Ok; rw [size_append]; exact hl 3 (by simpa using h2)
    · have := hg 3 (by simpa using h2)
      unfold size at this
      cases wide <;> simp [regular2rgbx, fieldDt, this]
  · refine ⟨⟨fieldDt wide, shape ++ [4], px.flatten⟩, by simp [rgbx2regular], rfl, ?_, ?_⟩
    · unfold Reg.Ok; rw [size_append]; exact hl 4 (by simpa using h2)
    · have := hg 4 (by simpa using h2)
      unfold size at this
      cases wide <;> simp [regular2rgbx, fieldDt, this]

/-- C08. Regular → structured → regular returns the same array, for every array whose last axis
has length 3 or 4 and whose dtype is `uint8` or `uint16`. -/
theorem C08_regular_roundtrip (r : Reg) (h : Reg.Ok r) (sh : List Nat) (k : Nat)
    (hsh : r.shape = sh ++ [k]) (hk : k = 3 ∨ k = 4) (hdt : r.dt ≠ .other) :
    ∃ a, regular2rgbx false r = .ok a ∧ a.shape = sh ∧ rgbx2regular (.rgb a) = .reg r := by
  obtain ⟨dt, shape, flat⟩ := r
  simp only at hsh hdt
  subst hsh
  unfold Reg.Ok at h
  simp only at h
  rw [size_append] at h
  have hf := flatten_groups k (size sh) flat h
  unfold size at hf
  rcases hk with e | e <;> subst e <;> cases dt <;>
    first
    | exact absurd rfl hdt
    | exact ⟨_, by simp [regular2rgbx]; rfl, rfl, by simp [rgbx2regular, fieldDt, hf]⟩

/-- C08. Arrays that are not RGB(A) are returned unchanged, and `is_rgbx` recognises exactly the
structured ones. -/
theorem C08_other_unchanged (r : Reg) :
    rgbx2regular (.reg r) = .reg r ∧ isRgbx (.reg r) = false ∧
    ∀ a : RgbArr, isRgbx (.rgb a) = true ∧ (isRgba (.rgb a) = true ↔ a.alpha = true) ∧
      (isRgb (.rgb a) = true ↔ a.alpha = false) := by
  refine ⟨rfl, rfl, fun a => ?_⟩
  cases h : a.alpha <;> simp [isRgbx, isRgb, isRgba, h]

/-- C08. Other dtypes and other numbers of channels are rejected with `ValueError`. -/
theorem C08_rejects (r : Reg) (sh : List Nat) (k : Nat) (hsh : r.shape = sh ++ [k])
    (h : (k ≠ 3 ∧ k ≠ 4) ∨ r.dt = .other) : regular2rgbx false r = .error .valueError := by
  obtain ⟨dt, shape, flat⟩ := r
  simp only at hsh h
  subst hsh
  simp only [regular2rgbx, Bool.false_eq_true, if_false, List.getLast?_append, List.getLast?_singleton,
    Option.some_or]
  rcases h with h | h
  · rw [if_pos h]
  · subst h; simp

/-- The docstring also allows dask arrays here, but they are rejected with `AttributeError`. -/
theorem C08_lazy_regular_fails (r : Reg) : regular2rgbx true r = .error .attributeError := rfl

example : RgbArr.Ok ⟨true, false, [2, 1], [[1, 2, 3], [4, 5, 60000]]⟩ ∧
    regular2rgbx false ⟨.u1, [1, 2, 4], [1, 2, 3, 4, 5, 6, 7, 8]⟩ =
      .ok ⟨false, true, [1, 2], [[1, 2, 3, 4], [5, 6, 7, 8]]⟩ := by
  refine ⟨⟨rfl, by decide⟩, by decide⟩

end Verif.Props.Rgb
