import Verif.Stats.Model
import Verif.Units.Model

/-!
# Model of the reading of group catalogues

`getPartType`, `getFoFSHData` (`cosmic_profiles/gadget/read_fof.py`), for all numbers of MPI processes.
HDF5 files are given by their contents.  Integer overflow (`np.int32`) is not modelled.
-/

namespace Verif.Gadget

/-- Exceptions of read_fof.py. -/
inductive Err | assertionError | valueError | indexError | exception
  deriving DecidableEq, Repr

/-- `getPartType`, read_fof.py:15-28. -/
def getPartType (name : String) : Except Err Nat :=
  if name = "dm" then .ok 1
  else if name = "stars" then .ok 4
  else if name = "gas" then .ok 0 else .error .assertionError

/-! ## Order of the files -/

/-- `\d` (ASCII). -/
def isDigit (c : Char) : Bool := c.isDigit

/-- `re.split('(\d+)', s)`: maximal runs of non-digits and digits in turn; the first and last are runs
of non-digits, possibly empty.  `digits`: whether the current run consists of digits. -/
def splitRuns (digits : Bool) (run : List Char) : List Char → List (List Char)
  | [] => if digits then [run, []] else [run]
  | c :: cs => if isDigit c = digits then splitRuns digits (run ++ [c]) cs
    else run :: splitRuns (!digits) [c] cs

/-- `re.split('(\d+)', s)`, read_fof.py:54. -/
def reSplit (s : List Char) : List (List Char) := splitRuns false [] s

/-- `np.int32(token)` for a string: decimal number. -/
def parseInt (token : List Char) : Except Err Nat :=
  if token ≠ [] ∧ token.all isDigit then
    .ok (token.foldl (fun n c => 10 * n + (c.toNat - '0'.toNat)) 0)
  else .error .valueError

/-- The key by which files are sorted, read_fof.py:54: `np.int32(re.split('(\d+)', file)[-4])`. -/
def fileKey (file : List Char) : Except Err Nat :=
  match (reSplit file).reverse[3]? with
  | some token => parseInt token
  | none => .error .indexError

/-- The files found by `glob.glob`, sorted with the result `args` of `np.argsort`, read_fof.py:50-55. -/
def sortFiles (globbed : List (List Char)) (args : List Nat) : Except Err (List (List Char)) :=
  (globbed.mapM fileKey).map fun _ => args.filterMap fun i => globbed[i]?

/-! ## Distribution over processes -/

/-- A boolean in arithmetic. -/
def b2i (b : Bool) : Int := if b then 1 else 0

/-- `perrank`, read_fof.py:57. -/
def perRank (n size : Nat) : Nat := n / size + (if n / size = 0 then 1 else 0)

/-- `last`, read_fof.py:59-62. -/
def isLast (n size rank : Nat) : Bool :=
  if size ≤ n then rank = size - 1 else (rank : Int) = (n : Int) - 1

/-- Files read by a process, read_fof.py:57-67:
`range(rank*perrank, rank*perrank+do_sth*(perrank+last*(n-(rank+1)*perrank)))`. -/
def filesOf (n size rank : Nat) : List Nat :=
  let per : Int := perRank n size
  let start : Int := rank * per
  let stop : Int := start + b2i ((rank : Int) ≤ n - 1) *
    (per + b2i (isLast n size rank) * (n - (rank + 1) * per))
  List.range' (rank * perRank n size) (stop - start).toNat

/-! ## Communication -/

variable {α : Type}

/-- Writing `xs` at position `pos` of a buffer. -/
def writeAt (buf : List (Option α)) (pos : Nat) : List α → List (Option α)
  | [] => buf
  | x :: xs => writeAt (buf.set pos (some x)) (pos + 1) xs

/-- `comm.Gatherv(local, [total, recvcounts, rdispls])` with the counts and displacements of
read_fof.py:81-99: the buffer is uninitialised (`none`) at first, process `j` is written at the
sum of the counts of the processes before it. -/
def gatherv (locals : List (List α)) : List (Option α) :=
  let counts := locals.map List.length
  (List.range locals.length).foldl
    (fun buf j => writeAt buf ((counts.take j).sum) (locals.getD j []))
    (List.replicate counts.sum none)

/-- `pieces`, read_fof.py:110 and 125, with `limit` for `3*10**8`. -/
def pieces (limit n : Nat) : Nat := 1 + (if limit ≤ n then n else 0) / limit

/-- Python slice `a[lo:hi]` for non-negative bounds. -/
def slice (lo hi : Nat) (a : List α) : List α := (a.take hi).drop lo

/-- Broadcast in pieces, read_fof.py:110-132: what every process holds in the end, given the
array `total` of process 0 (the pieces have the same length on all processes). -/
def bcast (limit : Nat) (total : List α) : List α :=
  let n := total.length
  let p := pieces limit n
  let chunk := n / p
  (List.range p).foldl (fun acc i =>
    acc ++ slice (i * chunk) ((i + 1) * chunk + (if i = p - 1 then n - p * chunk else 0)) total) []

/-! ## Catalogues -/

variable {K : Type}

/-- One group (FoF halo) in a file. -/
structure Group (K : Type) where
  lenType : Nat → Nat
  rTopHat : K
  rMean : K
  nSubs : Nat

/-- A group file: `none` if the dataset is missing.  Datasets of groups have the same length. -/
structure File (K : Type) where
  groups : Option (List (Group K))
  subhalos : Option (List (Nat → Nat))

/-- What a process collects. -/
structure Collected (K : Type) where
  nbShs : List Nat
  shLen : List Nat
  fofSizes : List Nat
  r200 : List K

/-- One pass of the loop over files, read_fof.py:68-80.  `f32` is rounding to single precision, `factor`
the ratio of units. -/
def readFile [Mul K] (f32 : K → K) (factor : K) (which : String) (ptype : Nat) (file : File K)
    (acc : Collected K) : Except Err (Collected K) :=
  let acc := match file.subhalos with
    | some shs => { acc with shLen := acc.shLen ++ shs.map fun s => s ptype }
    | none => acc
  match file.groups with
  | none => .ok acc
  | some gs =>
    if which = "Rvir" ∨ which = "R200" then
      .ok { acc with
        fofSizes := acc.fofSizes ++ gs.map fun g => g.lenType ptype
        nbShs := acc.nbShs ++ gs.map fun g => g.nSubs
        r200 := acc.r200 ++ gs.map fun g => f32 ((if which = "Rvir" then g.rTopHat else g.rMean) * factor) }
    else .error .valueError

/-- What process `rank` reads. -/
def readLocal [Mul K] (f32 : K → K) (factor : K) (which : String) (ptype : Nat) (files : List (File K))
    (size rank : Nat) : Except Err (Collected K) :=
  ((filesOf files.length size rank).filterMap fun i => files[i]?).foldlM
    (fun acc file => readFile f32 factor which ptype file acc) ⟨[], [], [], []⟩

/-- The uncached `getFoFSHData`, read_fof.py:45-134, on `size` processes for files already sorted: what
every process returns.  An error in any process is an error of the program (MPI aborts or blocks).
Uninitialised entries would show up as `none`. -/
def readFoF [Mul K] (f32 : K → K) (factor : K) (limit : Nat) (which : String) (ptype : Nat)
    (files : List (File K)) (size : Nat) :
    Except Err (List (Option Nat) × List (Option Nat) × List (Option Nat) × List (Option K)) :=
  if files.length = 0 then .error .valueError
  else
    ((List.range size).mapM (readLocal f32 factor which ptype files size)).map fun locals =>
      (bcast limit (gatherv (locals.map (·.nbShs))), bcast limit (gatherv (locals.map (·.shLen))),
       bcast limit (gatherv (locals.map (·.fofSizes))), bcast limit (gatherv (locals.map (·.r200))))

/-! ## Caching -/

/-- The state of a program: input unit of length (in cm) and Hubble parameter, and cached results.  The
cache of read_fof.py:135-138 is keyed by the arguments.  Simplification: nothing is ever evicted (it is in CachedUnits.lean). -/
structure Session (K : Type) where
  unit : K
  cache : List ((String × String × Nat) × List K)

/-- What a user does: declare another unit of length, or read the groups. -/
inductive Op (K : Type)
  | setUnit (u : K)
  | read (dest which : String) (ptype : Nat)

/-- Effect of an operation; `raw` are the radii in the files (for all arguments), `internal` is the
internal unit of length in cm. -/
def Session.step [Mul K] [Div K] (raw : String → String → Nat → List K) (internal : K) (s : Session K) :
    Op K → Session K × Option (List K)
  | .setUnit u => ({ s with unit := u }, none)
  | .read dest which ptype =>
    match s.cache.find? fun kv => kv.1 = (dest, which, ptype) with
    | some kv => (s, some kv.2)
    | none =>
      let r := (raw dest which ptype).map fun x => x * (s.unit / internal)
      ({ s with cache := ((dest, which, ptype), r) :: s.cache }, some r)

end Verif.Gadget
