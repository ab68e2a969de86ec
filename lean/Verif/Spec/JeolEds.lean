import Verif.Model.JeolEds
/-!
The layout of `.eds` files, independently of the reader: places in the header and in the block of parameters are counted from
their beginning; lists are preceded by their length.
-/
namespace Verif.JeolEds

/-- The bits of the double at a place. -/
def at8 (b : List UInt8) (k : Nat) : Nat := leVal ((b.drop k).take 8)

/-- The text of `n` bytes at a place, without the zeros that fill it up. -/
def TextAt (dec : List UInt8 → Option Text) (b : List UInt8) (k n : Nat) (t : Text) : Prop :=
  ∃ s, (∃ m, (b.drop k).take n = s ++ List.replicate m 0) ∧ s.getLast? ≠ some 0 ∧ dec s = some t

/-- A text can be written in `n` bytes. -/
def Writes (enc : Text → List UInt8) (dec : List UInt8 → Option Text) (n : Nat) (t : Text) : Prop :=
  dec (enc t) = some t ∧ (enc t).getLast? ≠ some 0 ∧ (enc t).length ≤ n

/-- `n` bytes, filled up with zeros. -/
def padText (enc : Text → List UInt8) (n : Nat) (t : Text) : List UInt8 := enc t ++ List.replicate (n - (enc t).length) 0

/-- A line of an element. -/
structure LineS where
  mark : Nat
  energy : Nat
  z : Nat
  el : Text
  name : Text
  det : Int

def lineBytes (enc : Text → List UInt8) (l : LineS) : List UInt8 :=
  leBytes 4 l.mark ++ (leBytes 8 l.energy ++ (leBytes 2 l.z ++ (leBytes 1 (enc l.el).length ++ (enc l.el ++
    (leBytes 1 (enc l.name).length ++ (enc l.name ++ leBytes 4 (ofSigned 4 l.det)))))))

/-- A selected element. -/
structure ElemS where
  mark : Nat
  z : Nat
  m1 : Nat
  m2 : Nat
  roiMin : Nat
  roiMax : Nat
  pad : List UInt8
  energy : Nat
  u1 : Nat
  u2 : Nat
  u3 : Nat
  name : Text
  mark3 : Nat
  lines : List LineS

def elemBytes (enc : Text → List UInt8) (e : ElemS) : List UInt8 :=
  leBytes 4 e.mark ++ (leBytes 2 e.z ++ (leBytes 4 e.m1 ++ (leBytes 4 e.m2 ++ (leBytes 2 e.roiMin ++ (leBytes 2 e.roiMax ++ (e.pad ++
    (leBytes 8 e.energy ++ (leBytes 8 e.u1 ++ (leBytes 8 e.u2 ++ (leBytes 8 e.u3 ++ (padText enc 32 e.name ++ (leBytes 4 e.mark3 ++
      (leBytes 4 e.lines.length ++ e.lines.flatMap (lineBytes enc))))))))))))))

/-- A line of the quantification. -/
structure QuantS where
  mark : Nat
  z : Nat
  m1 : Nat
  m2 : Nat
  energy : Nat
  u6 : Nat
  mass1 : Nat
  error : Nat
  atom : Nat
  name : Text
  mass2 : Nat
  k : Nat
  counts : Nat
  v1 : Nat
  v2 : Nat
  v3 : Nat
  v4 : Nat
  v5 : Nat

def quantBytes (enc : Text → List UInt8) (q : QuantS) : List UInt8 :=
  leBytes 4 q.mark ++ (leBytes 2 q.z ++ (leBytes 4 q.m1 ++ (leBytes 4 q.m2 ++ (leBytes 8 q.energy ++ (leBytes 8 q.u6 ++
    (leBytes 8 q.mass1 ++ (leBytes 8 q.error ++ (leBytes 8 q.atom ++ (padText enc 16 q.name ++ (leBytes 8 q.mass2 ++ (leBytes 8 q.k ++
      (leBytes 8 q.counts ++ (leBytes 8 q.v1 ++ (leBytes 8 q.v2 ++ (leBytes 4 q.v3 ++ (leBytes 4 q.v4 ++ leBytes 8 q.v5))))))))))))))))

/-- A file: a header of 454 bytes, the counts, the excluded elements, the selected elements, the quantification (28 bytes before
it, if there is one), and the parameters (340 bytes). -/
structure File where
  head : List UInt8
  counts : List Int
  pad : List UInt8
  excluded : List Nat
  elems : List ElemS
  qpad : List UInt8
  quants : List QuantS
  params : List UInt8
  rest : List UInt8

def fileBytes (enc : Text → List UInt8) (x : File) : List UInt8 :=
  x.head ++ (leBytes 4 x.counts.length ++ (x.counts.flatMap (fun c => leBytes 4 (ofSigned 4 c)) ++ (x.pad ++
    (leBytes 4 x.excluded.length ++ (x.excluded.flatMap (leBytes 2) ++ (leBytes 4 x.elems.length ++ (x.elems.flatMap (elemBytes enc) ++
      (leBytes 4 x.quants.length ++ ((if x.quants = [] then [] else x.qpad) ++ (x.quants.flatMap (quantBytes enc) ++
        (leBytes 4 5 ++ (x.params ++ x.rest))))))))))))

def Fit (w v : Nat) : Prop := v < 256 ^ w

/-- The count fits an `int32`. -/
def Small (c : Int) : Prop := -2 ^ 31 ≤ c ∧ c < 2 ^ 31

structure GoodLine (enc : Text → List UInt8) (dec : List UInt8 → Option Text) (z : Nat) (l : LineS) : Prop where
  mark : Fit 4 l.mark
  energy : Fit 8 l.energy
  zFit : Fit 2 l.z
  same : l.z = z
  el : Writes enc dec 127 l.el
  name : Writes enc dec 127 l.name
  det : Small l.det

/-- An element with at least one line; its lines are of the same element and have different names. -/
structure GoodElem (enc : Text → List UInt8) (dec : List UInt8 → Option Text) (e : ElemS) : Prop where
  mark : Fit 4 e.mark
  z : Fit 2 e.z
  m1 : Fit 4 e.m1
  m2 : Fit 4 e.m2
  roiMin : Fit 2 e.roiMin
  roiMax : Fit 2 e.roiMax
  pad : e.pad.length = 14
  energy : Fit 8 e.energy
  u1 : Fit 8 e.u1
  u2 : Fit 8 e.u2
  u3 : Fit 8 e.u3
  name : Writes enc dec 32 e.name
  mark3 : Fit 4 e.mark3
  count : e.lines.length < 2 ^ 31
  some : e.lines ≠ []
  lines : ∀ l ∈ e.lines, GoodLine enc dec e.z l
  distinct : (e.lines.map fun l => l.el ++ '_' :: l.name).Nodup

structure GoodQuant (enc : Text → List UInt8) (dec : List UInt8 → Option Text) (q : QuantS) : Prop where
  mark : Fit 4 q.mark
  z : Fit 2 q.z
  m1 : Fit 4 q.m1
  m2 : Fit 4 q.m2
  energy : Fit 8 q.energy
  u6 : Fit 8 q.u6
  mass1 : Fit 8 q.mass1
  error : Fit 8 q.error
  atom : Fit 8 q.atom
  name : Writes enc dec 16 q.name
  mass2 : Fit 8 q.mass2
  k : Fit 8 q.k
  counts : Fit 8 q.counts
  v1 : Fit 8 q.v1
  v2 : Fit 8 q.v2
  v3 : Fit 4 q.v3
  v4 : Fit 4 q.v4
  v5 : Fit 8 q.v5

/-- What an element is in the footer. -/
def elemEntry (e : ElemS) : Text × Elem :=
  (e.name, ⟨e.z, e.roiMin, e.roiMax, e.energy, e.lines.map fun l => (l.el ++ '_' :: l.name, ⟨l.energy, l.z, l.det⟩)⟩)

/-- What a line of the quantification is in the footer. -/
def quantEntry (q : QuantS) : Text × Quant := (q.name, ⟨q.z, q.mass1, q.error, q.atom, q.mass2, q.counts, q.energy⟩)

/-- A list that is absent when it is empty. -/
def present {α β : Type} (f : α → β) (l : List α) : Option (List β) := if l = [] then none else some (l.map f)

/-- Names, user, state and template of the header, and the texts of the parameters, can be decoded; the lists are not too long. -/
structure GoodFile (enc : Text → List UInt8) (dec : List UInt8 → Option Text) (x : File) (name user state tpl detT : Text) : Prop where
  head : x.head.length = 454
  name : TextAt dec x.head 18 80 name
  user : TextAt dec x.head 98 32 user
  state : TextAt dec x.head 378 32 state
  tpl : TextAt dec x.head 422 32 tpl
  nCounts : x.counts.length < 2 ^ 31
  counts : ∀ c ∈ x.counts, Small c
  pad : x.pad.length = 4
  nExcluded : x.excluded.length < 2 ^ 31
  excluded : ∀ z ∈ x.excluded, Fit 2 z
  nElems : x.elems.length < 2 ^ 31
  elems : ∀ e ∈ x.elems, GoodElem enc dec e
  elemNames : (x.elems.map (·.name)).Nodup
  qpad : x.qpad.length = 28
  nQuants : x.quants.length < 2 ^ 31
  quants : ∀ q ∈ x.quants, GoodQuant enc dec q
  quantNames : (x.quants.map (·.name)).Nodup
  params : x.params.length = 340
  detT : TextAt dec x.params 0 16 detT
  texts : ∀ k n, (k, n) ∈ [(16, 16), (32, 16), (212, 4), (226, 16), (310, 4)] → ∃ t, TextAt dec x.params k n t

end Verif.JeolEds
