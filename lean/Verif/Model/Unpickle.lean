import Verif.Py.Text
/-!
Model of `rsciio/pantarhei/_restricted_unpickling.py`: the pickle machine of the standard library (`pickle.Unpickler`) with `find_class` of the restricted unpickler.

Simplifications: a pickle is a list of instructions (the byte codes are not modelled; different byte codes for the same step are one instruction); objects are immutable trees; what a callable or a method
does is a parameter (`World`), and so is the registry of extension codes, whose cache is empty; `fix_imports` renames none of the listed names; what a persistent identifier or a buffer of another process
stands for is not available, as in `pickle.Unpickler`.
-/
namespace Verif.Unpickle

/-- Objects: plain data, what `find_class` returned, containers, and results of calls. -/
inductive Obj where
  | text (t : Text)
  | data (n : Nat)
  | glob (module name : Text)
  | box (l : List Obj)
  | result (n : Nat) (l : List Obj)

/-- Instructions. -/
inductive Op where
  | const (o : Nat)
  | text (t : Text)
  | mark
  | pop
  | popMark
  | dup
  /-- `EMPTY_LIST`, `TUPLE1` to `TUPLE3`, ...: a container of the last `n` objects. -/
  | collect (n : Nat)
  /-- `TUPLE`, `LIST`, `DICT`, `FROZENSET`: a container of all objects since the mark. -/
  | collectMark
  | put (i : Nat)
  | get (i : Nat)
  | global (module name : Text)
  | stackGlobal
  | inst (module name : Text)
  | obj
  | newobj
  | newobjEx
  | reduce
  | build
  /-- `APPEND`, `SETITEM`: a method of the object below the last `n` objects. -/
  | item (method : Text) (n : Nat)
  /-- `APPENDS`, `SETITEMS`, `ADDITEMS`. -/
  | items (method : Text)
  | ext (code : Nat)
  | persid
  | stop

/-- What happened. -/
inductive Event where
  | lookup (module name : Text)
  | call (f : Obj) (args : List Obj)
  | method (o : Obj) (name : Text) (args : List Obj)

inductive Err where
  | invalidPickle
  | unpickling
  | other
  deriving DecidableEq

/-- The rest of the world: what calls return (`none` if they raise), and the registry of extension codes. -/
structure World where
  call : Obj → List Obj → Option Obj
  method : Obj → Text → List Obj → Option Obj
  registry : Nat → Option (Text × Text)

/-- The state of the machine: the stack, the stacks below the marks, the memo, and what happened (last first). -/
structure St where
  stack : List Obj
  below : List (List Obj)
  memo : List (Nat × Obj)
  trace : List Event

/-- `white_list`, lines 47-54. -/
def whiteList : List (Text × List Text) := [("numpy._core.multiarray".toList, ["_reconstruct".toList, "scalar".toList]), ("numpy.core.multiarray".toList, ["_reconstruct".toList, "scalar".toList]),
  ("numpy".toList, ["ndarray".toList, "dtype".toList]), ("_codecs".toList, ["encode".toList])]

/-- `find_class`, lines 56-68. -/
def findClass (module name : Text) (s : St) : Except Err (Obj × St) := match whiteList.lookup module with
  | none => .error .invalidPickle
  | some names => if name ∈ names then .ok (.glob module name, { s with trace := .lookup module name :: s.trace }) else .error .invalidPickle

/-- `f(*args)`; the result is put on the stack. -/
def callWith (w : World) (f : Obj) (args : List Obj) (stack : List Obj) (s : St) : Except Err St := match w.call f args with
  | none => .error .other
  | some r => .ok { s with stack := r :: stack, trace := .call f args :: s.trace }

/-- A method of the object at the top of `stack`; the object stays there. -/
def methodWith (w : World) (m : Text) (o : Obj) (args : List Obj) (stack : List Obj) (s : St) : Except Err St := match w.method o m args with
  | none => .error .other
  | some r => .ok { s with stack := r :: stack, trace := .method o m args :: s.trace }

/-- The objects of a container of arguments. -/
def argsOf : Obj → Option (List Obj)
  | .box l => some l
  | _ => none

/-- `pop_mark`: the objects since the mark, the first one first, and the machine without them. -/
def popMark (s : St) : Except Err (List Obj × St) := match s.below with
  | [] => .error .unpickling
  | b :: bs => .ok (s.stack.reverse, { s with stack := b, below := bs })

/-- One instruction (`pickle._Unpickler.load_*`). -/
def step (w : World) (s : St) : Op → Except Err St
  | .const n => .ok { s with stack := .data n :: s.stack }
  | .text t => .ok { s with stack := .text t :: s.stack }
  | .mark => .ok { s with stack := [], below := s.stack :: s.below }
  | .pop => match s.stack with
    | _ :: t => .ok { s with stack := t }
    | [] => (popMark s).map (·.2)
  | .popMark => (popMark s).map (·.2)
  | .dup => match s.stack with
    | o :: t => .ok { s with stack := o :: o :: t }
    | [] => .error .unpickling
  | .collect n => if s.stack.length < n then .error .unpickling else .ok { s with stack := .box (s.stack.take n).reverse :: s.stack.drop n }
  | .collectMark => match popMark s with
    | .error e => .error e
    | .ok (l, s) => .ok { s with stack := .box l :: s.stack }
  | .put i => match s.stack with
    | o :: _ => .ok { s with memo := (i, o) :: s.memo }
    | [] => .error .unpickling
  | .get i => match s.memo.lookup i with
    | some o => .ok { s with stack := o :: s.stack }
    | none => .error .unpickling
  | .global m n => match findClass m n s with
    | .error e => .error e
    | .ok (o, s) => .ok { s with stack := o :: s.stack }
  | .stackGlobal => match s.stack with
    | .text n :: .text m :: t => match findClass m n s with
      | .error e => .error e
      | .ok (o, s) => .ok { s with stack := o :: t }
    | _ => .error .unpickling
  | .inst m n => match findClass m n s with
    | .error e => .error e
    | .ok (o, s) => match popMark s with
      | .error e => .error e
      | .ok (args, s) => callWith w o args s.stack s
  | .obj => match popMark s with
    | .error e => .error e
    | .ok (f :: args, s) => callWith w f args s.stack s
    | .ok ([], _) => .error .other
  | .newobj => match s.stack with
    | a :: c :: t => match argsOf a with
      | some args => methodWith w "__new__".toList c (c :: args) t s
      | none => .error .other
    | _ => .error .unpickling
  | .newobjEx => match s.stack with
    | k :: a :: c :: t => match argsOf a with
      | some args => methodWith w "__new__".toList c (c :: args ++ [k]) t s
      | none => .error .other
    | _ => .error .unpickling
  | .reduce => match s.stack with
    | a :: f :: t => match argsOf a with
      | some args => callWith w f args t s
      | none => .error .other
    | _ => .error .unpickling
  | .build => match s.stack with
    | st :: o :: t => methodWith w "__setstate__".toList o [st] t s
    | _ => .error .unpickling
  | .item m n => match s.stack.drop n with
    | o :: t => methodWith w m o (s.stack.take n).reverse t s
    | [] => .error .unpickling
  | .items m => match popMark s with
    | .error e => .error e
    | .ok (args, s) => match s.stack with
      | o :: t => methodWith w m o args t s
      | [] => .error .unpickling
  | .ext code => match w.registry code with
    | none => .error .other
    | some (m, n) => match findClass m n s with
      | .error e => .error e
      | .ok (o, s) => .ok { s with stack := o :: s.stack }
  | .persid => .error .unpickling
  | .stop => .ok s

/-- `load`: the instructions up to `STOP`. What happened is kept also when the pickle is rejected. -/
def run (w : World) : List Op → St → Except Err Obj × List Event
  | [], s => (.error .other, s.trace)
  | .stop :: _, s => match s.stack with
    | o :: _ => (.ok o, s.trace)
    | [] => (.error .unpickling, s.trace)
  | op :: ops, s => match step w s op with
    | .error e => (.error e, s.trace)
    | .ok s => run w ops s

/-- A machine before the first instruction. -/
def start : St := ⟨[], [], [], []⟩

/-- `read_pickled_array`, lines 71-91: only arrays of objects are unpickled. -/
def readPickled (w : World) (hasObject : Bool) (ops : List Op) : Except Err Obj × List Event :=
  if hasObject then run w ops start else (.error .other, [])

end Verif.Unpickle
