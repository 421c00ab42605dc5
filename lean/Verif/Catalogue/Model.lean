import Verif.Par.Basic
import Mathlib.Data.Rat.Floor
import Mathlib.Data.List.Dedup
import Mathlib.Algebra.Order.Round
import Mathlib.Algebra.BigOperators.Group.List.Basic

/-!
# Model of object selection and catalogue construction

* `isValidSelection`, `getSubSetIdxCat` (`cosmic_profiles/common/python_routines.py:611-654`)
* `DensShapeProfs.__init__` (`cosmic_profiles/shape_profs/shape_profs_classes.pyx:466-515`; the
  constructor of `DensProfs` is the same code)
* `calcObjCat`, `calcCSHIdxs` (`cosmic_profiles/gadget/gen_catalogues.pyx`)

C integer overflow is not modelled.
-/

namespace Verif.Catalogue

/-! ## Selections -/

/-- The ways in which `isValidSelection` refuses a selection, python_routines.py:611-636. -/
inductive SelErr | empty | nonInteger | negative | repeated | tooLarge
  deriving DecidableEq, Repr

/-- `np.max` of a non-empty list. -/
def maxOf : List ℚ → ℚ
  | [] => 0
  | [x] => x
  | x :: xs => max x (maxOf xs)

/-- `isValidSelection`, python_routines.py:611-636, in the order of the code.  Entries are
arbitrary rationals (an array of a floating-point type can be passed).  Simplification: `round`
breaks ties differently from numpy, which does not matter for the test `x != x.round()`. -/
def isValidSelection (obj : List ℚ) (nb : Nat) : Except SelErr Bool :=
  if obj.length = 0 then .error .empty
  else if (obj.filter fun x => decide (x ≠ ((round x : ℤ) : ℚ))).length ≠ 0 then .error .nonInteger
  else if (obj.filter fun x => decide (x < 0)).length ≠ 0 then .error .negative
  else if obj.dedup.length ≠ obj.length then .error .repeated
  else if (nb : ℚ) ≤ maxOf obj then .error .tooLarge
  else .ok true

/-- `np.int32(x)`: truncation towards zero. -/
def truncate (x : ℚ) : ℚ := if 0 ≤ x then (⌊x⌋ : ℤ) else (⌈x⌉ : ℤ)

/-- The argument `obj_numbers` of the public methods: a Python list or a numpy array. -/
inductive SelArg | list (l : List ℚ) | array (l : List ℚ)

/-- The start of every public method taking `obj_numbers`: lists are converted with `np.int32`, then
the selection is checked; e.g. shape_profs_classes.pyx:88-92, cosmic_base_class.pyx:933-937.
Result: the accepted object numbers. -/
def acceptSelection (a : SelArg) (nb : Nat) : Except SelErr (List ℚ) :=
  let obj := match a with
    | .list l => l.map truncate
    | .array l => l
  match isValidSelection obj nb with
  | .ok _ => .ok obj
  | .error e => .error e

/-! ## Sub-selections -/

variable {P R : Type}

/-- `np.hstack(([0], np.cumsum(obj_size)))`, starting from `acc`. -/
def offsetsFrom (acc : Nat) : List Nat → List Nat
  | [] => [acc]
  | n :: ns => acc :: offsetsFrom (acc + n) ns

/-- `offsets`, python_routines.py:650. -/
def offsets (sizes : List Nat) : List Nat := offsetsFrom 0 sizes

/-- `idx_cat[offsets[p]:offsets[p+1]]`; `none` = IndexError. -/
def objSlice (idxCat : List P) (sizes : List Nat) (p : Nat) : Option (List P) :=
  match (offsets sizes)[p]?, (offsets sizes)[p + 1]? with
  | some a, some b => some ((idxCat.drop a).take (b - a))
  | _, _ => none

/-- `getSubSetIdxCat`, python_routines.py:638-654. -/
def getSubSetIdxCat (idxCat : List P) (sizes : List Nat) (sel : List Nat) : Option (List P) :=
  sel.foldlM (init := []) fun acc p => (objSlice idxCat sizes p).map (acc ++ ·)

/-! ## Catalogue from user-supplied particle lists -/

/-- `arr.nonzero()[0]`. -/
def nonzero (l : List Int) : List Nat :=
  (List.range l.length).filter fun i => decide (l[i]? ≠ some 0)

/-- Fancy indexing `arr[idxs]`; `none` = IndexError. -/
def fancy (l : List R) (idxs : List Nat) : Option (List R) := idxs.mapM fun i => l[i]?

/-- First loop of the constructor, shape_profs_classes.pyx:500-503: `obj_pass`. -/
def objPass (minPtcs : Int) (idxCat : List (List P)) : List Int :=
  idxCat.map fun o => if (o.length : Int) ≥ minPtcs then 1 else 0

/-- First loop of the constructor: `obj_size`. -/
def objSizes (minPtcs : Int) (idxCat : List (List P)) : List Nat :=
  idxCat.map fun o => if (o.length : Int) ≥ minPtcs then o.length else 0

/-- Second loop, shape_profs_classes.pyx:508-510: `cat_arr`. -/
def catArr (pass : List Int) (idxCat : List (List P)) : List P :=
  (idxCat.zip pass).foldl (fun acc op => if op.2 = 1 then acc ++ op.1 else acc) []

/-- Arguments `idx_cat` (a list of lists, or one list) and `r200` (an array or a number). -/
inductive IdxArg (P : Type) | nested (l : List (List P)) | single (l : List P)
/-- The argument `r200`. -/
inductive RadArg (R : Type) | array (l : List R) | scalar (x : R)

/-- `DensShapeProfs.__init__`, shape_profs_classes.pyx:491-515: particle index array, R200 radii and
object sizes handed to the base class (`conv` is the unit conversion of lengths; positions, masses
and the remaining arguments are passed on unchanged up to units).  `none` = IndexError. -/
def construct (conv : R → R) (minPtcs : Int) (idxArg : IdxArg P) (radArg : RadArg R) :
    Option (List P × List R × List Nat) :=
  let r200 := match radArg with
    | .array l => l
    | .scalar x => [x]
  let idxCat := match idxArg with
    | .nested l => l
    | .single l => [l]
  match idxCat, idxArg with
  | [], _ => none -- idx_cat[0] fails
  | [[]], .single _ => none -- idx_cat[0] fails
  | _, _ =>
    let pass := objPass minPtcs idxCat
    let cat := catArr pass idxCat
    match fancy r200 (nonzero pass), fancy (objSizes minPtcs idxCat) (nonzero pass) with
    | some r, some s => some (cat, r.map conv, s)
    | _, _ => none

/-! ## Catalogue from FoF/SUBFIND tables -/

/-- Shared arrays of `calcObjCat`. -/
inductive Loc
  | pass (p : Nat) | size (p : Nat) | r200 (p : Nat) | cat (row col : Nat)
  deriving DecidableEq

/-- Contents of a shared array cell. -/
inductive Cell (R : Type) | int (n : Int) | real (x : R)

/-- `sum(l[:p])`, the loops `for q in range(p)` of gen_catalogues.pyx:69-70 and 83-86. -/
def prefixSum (l : List Int) (p : Nat) : Int := (l.take p).sum

/-- The same with bounds checking (`none` = IndexError). -/
def prefixSum? (l : List Int) (p : Nat) : Option Int :=
  if p ≤ l.length then some (prefixSum l p) else none

/-- Checked read with an `int` index (`boundscheck` is on here); negative indices count from the end
as `wraparound` is on. -/
def readInt (l : List Int) (i : Int) : Option Int :=
  if 0 ≤ i then l[i.toNat]? else if 0 ≤ i + l.length then l[(i + l.length).toNat]? else none

/-- The conditional part of iteration `p` of the first parallel loop, gen_catalogues.pyx:69-75. -/
def passWrites (nbShs shLen : List Int) (minPtcs : Int) (p : Nat) (n : Int) :
    Option (List (Loc × Cell R)) :=
  if n > 0 then
    (readInt shLen (prefixSum nbShs p)).map fun len =>
      if len ≥ minPtcs then [(Loc.pass p, Cell.int 1), (Loc.size p, Cell.int len)] else []
  else some []

/-- Writes of iteration `p` of the first parallel loop, gen_catalogues.pyx:68-76. -/
def iter1 (nbShs shLen : List Int) (groupR200 : List R) (minPtcs : Int) (p : Nat) :
    Option (List (Loc × Cell R)) := do
  let n ← nbShs[p]?
  let w ← passWrites nbShs shLen minPtcs p n
  let r ← groupR200[p]?
  some (w ++ [(Loc.r200 p, Cell.real r)])

/-- The integer in a cell. -/
def Cell.toInt : Cell R → Int
  | .int n => n
  | .real _ => 0

/-- `calcCSHIdxs`, gen_catalogues.pyx:12-35: the writes to row `row`. -/
def cshWrites (row : Nat) (start n size minPtcs : Int) : List (Loc × Cell R) :=
  if n > 0 ∧ size ≥ minPtcs then
    (List.range size.toNat).map fun (k : Nat) => (Loc.cat row k, Cell.int (start + (k : Int)))
  else []

/-- Writes of iteration `p` of the second parallel loop, gen_catalogues.pyx:80-87; `compr` is
`idxs_compr`. -/
def iter2 (nbShs shLen fofSizes : List Int) (minPtcs : Int) (pass : Nat → Int) (compr : Nat → Nat)
    (p : Nat) : Option (List (Loc × Cell R)) :=
  if pass p = 1 then do
    let n ← nbShs[p]?
    let start ← prefixSum? fofSizes p
    let len ← readInt shLen (prefixSum nbShs p)
    some (cshWrites (compr p) start n len minPtcs)
  else some []

/-- Rank of `p` among the passing halos, gen_catalogues.pyx:78-79. -/
def rankIn (passing : List Nat) (p : Nat) : Nat := passing.idxOf p

/-- Initial contents of the shared arrays (`np.zeros`); `zero` is the real number 0. -/
def initMem (zero : R) : Loc → Cell R
  | .r200 _ => .real zero
  | _ => .int 0

/-- State after the first loop and the serial code behind it: a possible memory and the list of passing
halos (`obj_pass.nonzero()[0]`), gen_catalogues.pyx:57-79. -/
structure Phase1 (zero : R) (nbShs shLen : List Int) (groupR200 : List R) (minPtcs : Int)
    (mem : Loc → Cell R) (passing : List Nat) : Prop where
  groups : nbShs.length ≠ 0
  run : ∃ its ws, (List.range nbShs.length).mapM (iter1 nbShs shLen groupR200 minPtcs) = some its ∧
    Par.Interleaving its ws ∧ mem = Par.exec (initMem zero) ws
  passing_eq : passing =
    (List.range nbShs.length).filter fun p => decide ((mem (.pass p)).toInt ≠ 0)

/-- The returned arrays, gen_catalogues.pyx:88-93.  Row `row` of the catalogue array is cut to the
size of the corresponding object (the array is as wide as the largest object). -/
def output (zero : R) (mem : Loc → Cell R) (passing : List Nat) : List Int × List R × List Int :=
  (((List.range passing.length).map fun row =>
      (List.range ((passing.map fun p => (mem (.size p)).toInt)[row]?.getD 0).toNat).map
        fun col => (mem (.cat row col)).toInt).flatten,
   passing.map fun p => match mem (.r200 p) with | .real x => x | .int _ => zero,
   passing.map fun p => (mem (.size p)).toInt)

/-- `calcObjCat.inner`, gen_catalogues.pyx:57-93, as a relation: `CalcObjCat ... out` if `out` is a
possible result under some schedule of the two parallel loops.  `none` stands for an exception
(IndexError for inconsistent tables; ValueError from `np.max` of an empty array if there are no
groups). -/
inductive CalcObjCat (zero : R) (nbShs shLen fofSizes : List Int) (groupR200 : List R)
    (minPtcs : Int) : Option (List Int × List R × List Int) → Prop
  | noGroups (h : nbShs.length = 0) : CalcObjCat zero nbShs shLen fofSizes groupR200 minPtcs none
  | loop1Fails (h : (List.range nbShs.length).mapM (iter1 nbShs shLen groupR200 minPtcs) = none) :
      CalcObjCat zero nbShs shLen fofSizes groupR200 minPtcs none
  | loop2Fails (mem : Loc → Cell R) (passing : List Nat)
      (h1 : Phase1 zero nbShs shLen groupR200 minPtcs mem passing)
      (h2 : (List.range nbShs.length).mapM (iter2 (R := R) nbShs shLen fofSizes minPtcs
        (fun p => (mem (.pass p)).toInt) (rankIn passing)) = none) :
      CalcObjCat zero nbShs shLen fofSizes groupR200 minPtcs none
  | finished (mem : Loc → Cell R) (passing : List Nat)
      (h1 : Phase1 zero nbShs shLen groupR200 minPtcs mem passing)
      (its ws : List _)
      (h2 : (List.range nbShs.length).mapM (iter2 nbShs shLen fofSizes minPtcs
        (fun p => (mem (.pass p)).toInt) (rankIn passing)) = some its)
      (s2 : Par.Interleaving its ws) :
      CalcObjCat zero nbShs shLen fofSizes groupR200 minPtcs
        (some (output zero (Par.exec mem ws) passing))

end Verif.Catalogue
