import Mathlib.Data.Rat.Defs
import Mathlib.Algebra.BigOperators.Group.List.Basic

/-!
# Model of the array cache (`cosmic_profiles/common/caching.py:254-303`)

`np_cache_factory(nb_arrs, nb_lists)` turns the first `nb_arrs` arguments (numpy arrays) into
tuples and the next `nb_lists` arguments (lists of lists) into tuples of tuples, calls an
`lru_cache`d function with these plus the array shapes, and that function rebuilds arrays and lists
before calling the user function.
-/

namespace Verif.NpCache

/-- Element types.  Simplification: a representative selection of numpy and Python scalar types;
nothing below depends on the selection. -/
inductive DType | float64 | float32 | int64 | int32 | pyint | pyfloat | pybool
  deriving DecidableEq, Repr

/-- Numeric values: finite, negative zero, infinities, NaN. -/
inductive Num | fin (q : ℚ) | negZero | inf (neg : Bool) | nan
  deriving DecidableEq

/-- A scalar: value together with its type. -/
structure Sc where
  dt : DType
  val : Num
  deriving DecidableEq

/-- Multi-dimensional arrays of shape `s` as functions of the indices. -/
def Nd (α : Type) : List Nat → Type
  | [] => α
  | n :: s => Fin n → Nd α s

/-- Number of entries of a shape. -/
def size (s : List Nat) : Nat := s.prod

/-- `arr.flatten()` (row-major), caching.py:291. -/
def flatten {α : Type} : (s : List Nat) → Nd α s → List α
  | [], a => [a]
  | n :: s, a => (List.ofFn fun i : Fin n => flatten s (a i)).flatten

/-- `np.array(flat).reshape(dims)` (row-major), caching.py:276; `none` = ValueError. -/
def reshape {α : Type} : (s : List Nat) → List α → Option (Nd α s)
  | [], [x] => some x
  | [], _ => none
  | n :: s, l =>
    if l.length = n * size s then
      let parts := fun i : Fin n => reshape s ((l.drop (i.1 * size s)).take (size s))
      if h : ∀ i, (parts i).isSome then some (fun i => (parts i).get (h i)) else none
    else none

/-- Arguments as the caller passes them. `obj` stands for other hashable Python objects. -/
inductive Val
  | arr (d : DType) (s : List Nat) (a : Nd Num s)
  | lists (l : List (List Sc))
  | num (x : Sc)
  | str (s : String)
  | none

/-- Arguments after conversion to hashable objects. -/
inductive Frozen
  | flat (l : List Sc)
  | tups (l : List (List Sc))
  | num (x : Sc)
  | str (s : String)
  | none
  deriving DecidableEq

/-- Exceptions of the decorator, caching.py:251-309. -/
inductive Err | attributeError | indexError | typeError | valueError
  deriving DecidableEq, Repr

/-- `wrapper(*args)`, caching.py:283-297: arrays become tuples (their shapes are collected),
lists of lists become tuples of tuples, the remaining arguments are passed on and must be hashable
(otherwise hashing the key raises TypeError).
Simplification: an argument in a list slot that is not a list of lists is a TypeError. -/
def freeze : Nat → Nat → List Val → Except Err (List Frozen × List (List Nat))
  | 0, 0, [] => .ok ([], [])
  | 0, 0, v :: vs =>
    match v with
    | .arr .. => .error .typeError
    | .lists _ => .error .typeError
    | .num x => (freeze 0 0 vs).map fun r => (.num x :: r.1, r.2)
    | .str x => (freeze 0 0 vs).map fun r => (.str x :: r.1, r.2)
    | .none => (freeze 0 0 vs).map fun r => (.none :: r.1, r.2)
  | 0, _ + 1, [] => .error .indexError
  | 0, l + 1, v :: vs =>
    match v with
    | .lists x => (freeze 0 l vs).map fun r => (.tups x :: r.1, r.2)
    | _ => .error .typeError
  | _ + 1, _, [] => .error .indexError
  | a + 1, l, v :: vs =>
    match v with
    | .arr d s x => (freeze a l vs).map fun r => (.flat ((flatten s x).map (Sc.mk d)) :: r.1, s :: r.2)
    | _ => .error .attributeError

/-- dtype chosen by `np.array(tuple)`: that of the elements; float64 for an empty tuple.
Simplification: the elements of one tuple always have the same type here (they come from one
array), so numpy's promotion rules reduce to the type of the first element. -/
def arrayDType : List Sc → DType
  | [] => .float64
  | x :: _ => x.dt

/-- `cached_wrapper(*args_cached, dims)`, caching.py:271-279: rebuild arrays and lists. -/
def thaw : Nat → Nat → List Frozen → List (List Nat) → Except Err (List Val)
  | 0, 0, [], _ => .ok []
  | 0, 0, v :: vs, ds =>
    match v with
    | .flat _ => .error .typeError
    | .tups _ => .error .typeError
    | .num x => (thaw 0 0 vs ds).map (.num x :: ·)
    | .str x => (thaw 0 0 vs ds).map (.str x :: ·)
    | .none => (thaw 0 0 vs ds).map (.none :: ·)
  | 0, _ + 1, [], _ => .error .indexError
  | 0, l + 1, v :: vs, ds =>
    match v with
    | .tups x => (thaw 0 l vs ds).map (.lists x :: ·)
    | _ => .error .typeError
  | _ + 1, _, [], _ => .error .indexError
  | _ + 1, _, _ :: _, [] => .error .indexError
  | a + 1, l, v :: vs, d :: ds =>
    match v with
    | .flat x =>
      match reshape d (x.map Sc.val) with
      | some arr => (thaw a l vs ds).map (.arr (arrayDType x) d arr :: ·)
      | Option.none => .error .valueError
    | _ => .error .typeError

/-- Python's `==`/`hash` on numbers ignores the type and the sign of zero; a NaN is equal only to
itself as an object.  Every call creates new scalar objects, so the NaNs of different calls are
different; `call` identifies the call. -/
inductive KeyNum | fin (q : ℚ) | inf (neg : Bool) | nan (call : Nat)
  deriving DecidableEq

/-- A number as part of a key. -/
def keyNum (call : Nat) (x : Sc) : KeyNum :=
  match x.val with
  | .fin q => .fin q
  | .negZero => .fin 0
  | .inf b => .inf b
  | .nan => .nan call

/-- Items of the key tuple. `mark` is the separator object (caching.py:27). -/
inductive KeyItem
  | flat (l : List KeyNum)
  | tups (l : List (List KeyNum))
  | num (x : KeyNum)
  | str (s : String)
  | none
  | mark
  | kwName (s : String)
  | dims (d : List (List Nat))
  deriving DecidableEq

/-- An argument as part of the key. -/
def keyItem (call : Nat) : Frozen → KeyItem
  | .flat l => .flat (l.map (keyNum call))
  | .tups l => .tups (l.map (·.map (keyNum call)))
  | .num x => .num (keyNum call x)
  | .str s => .str s
  | .none => .none

/-- `_make_key(args, {'dims': dims}, typed=False)`, caching.py:26-50.  The length of this key is at
least three so the single-argument shortcut (48-49) never applies.  Up to Python equality. -/
def makeKey (call : Nat) (fr : List Frozen) (ds : List (List Nat)) : List KeyItem :=
  fr.map (keyItem call) ++ [.mark] ++ [.kwName "dims", .dims ds]

end Verif.NpCache
