import Verif.Py.Basic
/-!
Model of the unpacking of packed complex images, `rsciio/digitalmicrograph/_api.py`
(`ImageObject.unpack_new_packed_complex`, `unpack_packed_complex`).

Real numbers are an arbitrary type with zero and negation; a complex number is a pair, so
`realpart + imagpart * 1j` is the pair of its parts (finite numbers; signed zeros are not
distinguished). Images are functions of row and column.
-/
namespace Verif.DMImage

structure Scalar (α : Type) where
  zero : α
  neg : α → α

abbrev Img (α : Type) := Nat → Nat → α × α

def conj {α : Type} (s : Scalar α) (z : α × α) : α × α := (z.1, s.neg z.2)

/-- Assignment to the block of rows `[r0, r1)` and columns `[c0, c1)`. -/
def assign {α : Type} (img : Img α) (r0 r1 c0 c1 : Nat) (v : Nat → Nat → α × α) : Img α :=
  fun i j => if (r0 ≤ i ∧ i < r1) ∧ (c0 ≤ j ∧ j < c1) then v i j else img i j

/-- `tmpdata[k]`. -/
def nth {α : Type} (s : Scalar α) (t : List α) (k : Nat) : α := t.getD k s.zero

/-- `realpart + imagpart * 1j` for the two numbers from position `k`. -/
def pair {α : Type} (s : Scalar α) (t : List α) (k : Nat) : α × α := (nth s t k, nth s t (k + 1))

/-- The real values, lines 695-701. -/
def stepReal {α : Type} (s : Scalar α) (t : List α) (N : Nat) : Img α :=
  let d0 : Img α := fun _ _ => (s.zero, s.zero)
  let d1 := assign d0 N (N + 1) 0 1 fun _ _ => (nth s t 0, s.zero)
  let d2 := assign d1 0 1 0 1 fun _ _ => (nth s t 1, s.zero)
  let d3 := assign d2 N (N + 1) N (N + 1) fun _ _ => (nth s t (2 * (N * N)), s.zero)
  assign d3 0 1 N (N + 1) fun _ _ => (nth s t (2 * (N * N) + 1), s.zero)

/-- The stored complex values, lines 703-731. -/
def stepStored {α : Type} (s : Scalar α) (t : List α) (N : Nat) (d : Img α) : Img α :=
  -- top right quarter, except 1st column: row i starts at 2 i N + 2
  let d1 := assign d 0 N (N + 1) (2 * N) fun i j => pair s t (2 * (i * N) + 2 + 2 * (j - (N + 1)))
  -- 1st column, bottom left quarter: from 2 N in steps of 2 N
  let d2 := assign d1 (N + 1) (2 * N) 0 1 fun i _ => pair s t (2 * N + 2 * (N * (i - (N + 1))))
  -- 1st row, bottom right quarter: from 2 N² + 2
  let d3 := assign d2 N (N + 1) (N + 1) (2 * N) fun _ j =>
    pair s t (2 * (N * N) + 2 + 2 * (j - (N + 1)))
  -- bottom right quarter, except 1st row: from 2 N² + 2 N, N columns
  assign d3 (N + 1) (2 * N) N (2 * N) fun i j =>
    pair s t (2 * (N * N) + 2 * N + 2 * (N * (i - (N + 1)) + (j - N)))

/-- The pixels filled by symmetry, lines 733-745; each right-hand side is read before. -/
def stepSymmetric {α : Type} (s : Scalar α) (N : Nat) (d : Img α) : Img α :=
  let d1 := assign d 0 1 1 N fun _ j => conj s (d 0 (2 * N - j))
  let d2 := assign d1 N (N + 1) 1 N fun _ j => conj s (d1 N (2 * N - j))
  let d3 := assign d2 1 N 0 1 fun i _ => conj s (d2 (2 * N - i) 0)
  let d4 := assign d3 1 N N (N + 1) fun i _ => conj s (d3 (2 * N - i) N)
  let d5 := assign d4 1 N 1 N fun i j => conj s (d4 (2 * N - i) (2 * N - j))
  assign d5 (N + 1) (2 * N) 1 N fun i j => conj s (d5 (2 * N - i) (2 * N - j))

/-- `unpack_packed_complex`, lines 683-747, for the shape `(h, w)`. Too few numbers or an image
without pixels is an error (`IndexError`, or `ValueError` from a broadcast). -/
def unpackPacked {α : Type} (s : Scalar α) (h w : Nat) (t : List α) : Py (Img α) :=
  if h ≠ w then .error .ioError
  else
    let N := h / 2
    if N = 0 ∨ t.length < 4 * (N * N) then .error .indexError
    else .ok (stepSymmetric s N (stepStored s t N (stepReal s t N)))

/-- `unpack_new_packed_complex`, lines 678-681: the stored columns `0 … W/2` reversed, then the
conjugates of columns `1 … W/2 - 1`. Returns the number of columns and the image. -/
def unpackNew {α : Type} (s : Scalar α) (h w : Nat) (t : List (α × α)) : Py (Nat × Img α) :=
  let p := w / 2 + 1
  if t.length ≠ h * p then .error .valueError
  else .ok (p + (p - 2), fun r c =>
    if c < p then t.getD (r * p + (p - 1 - c)) (s.zero, s.zero)
    else conj s (t.getD (r * p + (1 + (c - p))) (s.zero, s.zero)))

end Verif.DMImage
