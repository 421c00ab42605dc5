import Verif.Periodic.Model
import Verif.Binning.Model
import Mathlib.LinearAlgebra.Matrix.Notation

/-!
# Model of the iterative shape determination

`cosmic_profiles/shape_profs/shape_profs_algos.pyx` and `CythonHelpers.calcShapeTensor`,
`calcLocalSpread` (`cosmic_profiles/cython_helpers/helper_class.pyx`).

* Real arithmetic instead of floating point.  Cython checks divisors (`cdivision` is off), so a
  division by zero raises `ZeroDivisionError`: every division which can fail is `cdiv`, and `none` is
  the exception.
* LAPACK's `zheevr` is an arbitrary function `Solver`; theorems which need it assume that it returns
  ascending eigenvalues and real orthogonal eigenvectors (`IsEigen`).  Its exceptions are not modelled.
* The four variants `runEllAlgo`, `runShellAlgo`, `runEllVDispAlgo`, `runShellVDispAlgo` differ in the
  membership test (`deltaD`) and in the vectors entering the tensor (`src`): positions or velocities.
-/

namespace Verif.Shapes

open Verif.Binning (ScanState scan)

/-- Division with Cython's check. -/
noncomputable def cdiv (x y : ℝ) : Option ℝ := if y = 0 then none else some (x / y)

/-- `shape_tensor`, a 3×3 matrix (complex in the code, with vanishing imaginary parts), shape_profs_algos.pyx. -/
abbrev Tensor := Fin 3 → Fin 3 → ℝ

/-- Eigenvalues and (real parts of) eigenvectors as `zheevr` returns them: `vec k` belongs to
`val k`. -/
structure Eigen where
  val : Fin 3 → ℝ
  vec : Fin 3 → Vec ℝ

/-- `zheevr` of LAPACK, called in `cython_helpers/helper_class.pyx`; arbitrary in the model. -/
abbrev Solver := Tensor → Eigen

/-- A particle: position, the vector entering the tensor (position or velocity), mass. -/
structure Pt where
  x : Vec ℝ
  src : Vec ℝ
  m : ℝ

/-- Entries of `morph_info` for one radius. -/
structure Morph where
  d : ℝ
  q : ℝ
  s : ℝ
  major : Vec ℝ
  inter : Vec ℝ
  minor : Vec ℝ

/-- `morph_info[:] = 0.0`. -/
def Morph.zero : Morph := ⟨0, 0, 0, 0, 0, 0⟩

/-- Arguments of one run of the iterative algorithm. `deltaD = none`: ellipsoid-based,
`some δ`: shell-based. -/
structure Config where
  pts : List Pt
  center : Vec ℝ
  srcCenter : Vec ℝ
  d : ℝ
  deltaD : Option ℝ
  tol : ℝ
  wall : Int
  itMin : Int
  reduced : Bool
  solver : Solver

/-- Scratch arrays: `xyz_princ` (slice of the object's size), `shell`/`ellipsoid` and `r_ell` (full
length), `shape_tensor`.  `eigval`, `eigvec` are zeroed and then filled by the solver before any use and
are not represented. -/
structure Scratch where
  princ : List (Vec ℝ)
  shell : List Nat
  rEll : List ℝ
  tensor : Tensor

/-! ## Shape tensor -/

/-- Weight of one particle in entry (i,j), helper_class.pyx:50-54. -/
noncomputable def tensorTerm (cfg : Config) (massTot : ℝ) (p : Pt) (r : ℝ) (i j : Fin 3) : Option ℝ :=
  cdiv (p.m * (p.src i - cfg.srcCenter i) * (p.src j - cfg.srcCenter j))
    (if cfg.reduced then massTot * r ^ 2 else massTot)

/-- Adding one particle (if the reads are in range) to the entry (i,j). -/
noncomputable def addTerm (cfg : Config) (massTot : ℝ) (i j : Fin 3) (acc : ℝ) :
    Option (Pt × ℝ) → Option ℝ
  | some (p, r) => (tensorTerm cfg massTot p r i j).map (acc + ·)
  | none => some acc

/-- `nns[k]`, `masses[k]`, `r_ell[k]`. -/
def lookup (cfg : Config) (rEll : List ℝ) (k : Nat) : Option (Pt × ℝ) :=
  cfg.pts[k]?.bind fun p => rEll[k]?.map fun r => (p, r)

/-- The entry (i,j) accumulated in place over the first `n` selected particles,
helper_class.pyx:49-54.  Out-of-range reads (excluded by the theorems) contribute nothing. -/
noncomputable def tensorEntry (cfg : Config) (sc : Scratch) (n : Nat) (massTot start : ℝ) (i j : Fin 3) :
    Option ℝ :=
  (List.range n).foldlM (fun acc run =>
    addTerm cfg massTot i j acc (sc.shell[run]?.bind (lookup cfg sc.rEll))) start

/-- `mass_tot`, helper_class.pyx:41-44. -/
noncomputable def massTotal (cfg : Config) (sc : Scratch) (n : Nat) : ℝ :=
  (List.range n).foldl (fun acc run =>
    acc + ((sc.shell[run]?.bind fun k => cfg.pts[k]?).map fun p => p.m).getD 0) 0

/-- `calcShapeTensor`, helper_class.pyx:19-57: the tensor is zeroed, the lower triangle accumulated and
mirrored. -/
noncomputable def calcShapeTensor (cfg : Config) (sc : Scratch) (n : Nat) : Option Tensor := do
  let t : Tensor := fun _ _ => 0
  let mt := massTotal cfg sc n
  let e00 ← tensorEntry cfg sc n mt (t 0 0) 0 0
  let e10 ← tensorEntry cfg sc n mt (t 1 0) 1 0
  let e11 ← tensorEntry cfg sc n mt (t 1 1) 1 1
  let e20 ← tensorEntry cfg sc n mt (t 2 0) 2 0
  let e21 ← tensorEntry cfg sc n mt (t 2 1) 2 1
  let e22 ← tensorEntry cfg sc n mt (t 2 2) 2 2
  some ![![e00, e10, e20], ![e10, e11, e21], ![e20, e21, e22]]

/-! ## Iteration -/

/-- `eigvec[:,k].real / vec_norm`, shape_profs_algos.pyx:105-120. -/
noncomputable def normalise (v : Vec ℝ) : Option (Vec ℝ) := do
  let n := Real.sqrt (v 0 ^ 2 + v 1 ^ 2 + v 2 ^ 2)
  let a ← cdiv (v 0) n
  let b ← cdiv (v 1) n
  let c ← cdiv (v 2) n
  some ![a, b, c]

/-- Row of `xyz_princ`, shape_profs_algos.pyx:123-125. -/
def toPrinc (cfg : Config) (major inter minor : Vec ℝ) (p : Pt) : Vec ℝ :=
  let y : Vec ℝ := fun i => p.x i - cfg.center i
  ![major 0 * y 0 + major 1 * y 1 + major 2 * y 2,
    inter 0 * y 0 + inter 1 * y 1 + inter 2 * y 2,
    minor 0 * y 0 + minor 1 * y 1 + minor 2 * y 2]

/-- `x**2 + y**2/q**2 + z**2/s**2`, shape_profs_algos.pyx:126. -/
noncomputable def ellRadius2 (q s : ℝ) (y : Vec ℝ) : Option ℝ := do
  let b ← cdiv (y 1 ^ 2) (q ^ 2)
  let c ← cdiv (y 2 ^ 2) (s ^ 2)
  some (y 0 ^ 2 + b + c)

/-- Initial membership (sphere or spherical shell), shape_profs_algos.pyx:82 and 207. -/
noncomputable def initialTest (cfg : Config) (p : Pt) : Bool :=
  match cfg.deltaD with
  | none => decide (Binning.dist2 cfg.center p.x < cfg.d ^ 2)
  | some δ => decide (Binning.dist2 cfg.center p.x < cfg.d ^ 2 ∧
      Binning.dist2 cfg.center p.x ≥ (cfg.d - δ) ^ 2)

/-- Inner boundary of a shell of constant thickness, second half of shape_profs_algos.pyx:139. -/
noncomputable def innerTest (d δ q s : ℝ) (y : Vec ℝ) : Option Bool := do
  let a ← cdiv (y 0 ^ 2) ((d - δ) ^ 2)
  let b ← cdiv (y 1 ^ 2) ((q * d - δ) ^ 2)
  let c ← cdiv (y 2 ^ 2) ((s * d - δ) ^ 2)
  some (decide (a + b + c ≥ 1))

/-- Membership in the deformed volume, shape_profs_algos.pyx:130-143 and 256: `and` is
short-circuiting, the first shell (`d == delta_d`) has no inner boundary. -/
noncomputable def laterTest (cfg : Config) (q s : ℝ) (y : Vec ℝ) : Option Bool := do
  let r2 ← ellRadius2 q s y
  if r2 < cfg.d ^ 2 then
    match cfg.deltaD with
    | none => some true
    | some δ => if cfg.d = δ then some true else innerTest cfg.d δ q s y
  else some false

/-- Variables of the loop, shape_profs_algos.pyx:67-79. -/
structure LoopState where
  q : ℝ
  s : ℝ
  err : ℝ
  iteration : Nat
  n : Nat
  sc : Scratch
  morph : Morph

/-- What happens after evaluating the loop condition and body once. -/
inductive Next (R S : Type) where
  | stop (r : R)
  | go (st : S)

/-- Membership loop: which particles (numbers) are inside, shape_profs_algos.pyx:127-143. -/
def collect (inside : List Bool) (n : Nat) (shell : List Nat) : List Nat × Nat :=
  let s := scan (fun i => inside[i]?.getD false) n (shell.map fun _ => 0)
  (s.shell, s.pts)

/-- Writing the first entries of `r_ell`, shape_profs_algos.pyx:87, 126. -/
def overwrite {α : Type} (new old : List α) : List α := new ++ old.drop new.length

/-- New eigenframe, ratios and error, shape_profs_algos.pyx:97-120:
`(q_new, s_new, err, major, inter, minor)`. -/
noncomputable def diagonalise (cfg : Config) (t : Tensor) (q s : ℝ) :
    Option (ℝ × ℝ × ℝ × Vec ℝ × Vec ℝ × Vec ℝ) := do
  let e := cfg.solver t
  let q2 ← cdiv (e.val 1) (e.val 2)
  let s2 ← cdiv (e.val 0) (e.val 2)
  let qn := Real.sqrt q2
  let sn := Real.sqrt s2
  let eq ← cdiv |qn - q| q
  let es ← cdiv |sn - s| s
  let major ← normalise (e.vec 2)
  let inter ← normalise (e.vec 1)
  let minor ← normalise (e.vec 0)
  some (qn, sn, max eq es, major, inter, minor)

/-- The part of the loop body after the two early returns, shape_profs_algos.pyx:95-144. -/
noncomputable def iterate (cfg : Config) (st : LoopState) : Option LoopState := do
  let t ← calcShapeTensor cfg st.sc st.n
  let (qn, sn, err, major, inter, minor) ← diagonalise cfg t st.q st.s
  let princ := cfg.pts.map (toPrinc cfg major inter minor)
  let rs ← princ.mapM fun y => (ellRadius2 qn sn y).map Real.sqrt
  let tests ← princ.mapM (laterTest cfg qn sn)
  let c := collect tests cfg.pts.length st.sc.shell
  some { q := qn, s := sn, err := err, iteration := st.iteration + 1, n := c.2
         sc := ⟨princ, c.1, overwrite rs st.sc.rEll, t⟩
         morph := ⟨cfg.d, qn, sn, major, inter, minor⟩ }

/-- One evaluation of `while (err > IT_TOL)` and its body, shape_profs_algos.pyx:88-144. -/
noncomputable def loopStep (cfg : Config) (st : LoopState) :
    Next (Option (Morph × Scratch)) LoopState :=
  if st.err > cfg.tol then
    if (st.iteration : Int) > cfg.wall then .stop (some (.zero, st.sc))
    else if (st.n : Int) < cfg.itMin then .stop (some (.zero, st.sc))
    else match iterate cfg st with
      | none => .stop none
      | some st' => .go st'
  else .stop (some (st.morph, st.sc))

/-- Start of the algorithm, shape_profs_algos.pyx:67-87: sphere, `q = s = 1`. -/
noncomputable def start (cfg : Config) (morph : Morph) (sc : Scratch) : LoopState :=
  let c := collect (cfg.pts.map (initialTest cfg)) cfg.pts.length sc.shell
  let rs := cfg.pts.map fun p => Real.sqrt ((cfg.center 0 - p.x 0) ^ 2 +
    (cfg.center 1 - p.x 1) ^ 2 / 1 ^ 2 + (cfg.center 2 - p.x 2) ^ 2 / 1 ^ 2)
  { q := 1, s := 1, err := 1, iteration := 1, n := c.2
    sc := ⟨sc.princ, c.1, overwrite rs sc.rEll, sc.tensor⟩, morph := morph }

/-- Evaluating the loop at most `fuel` times; `none` = still running. -/
def loop {R S : Type} (step : S → Next R S) : Nat → S → Option R
  | 0, _ => none
  | fuel + 1, st =>
    match step st with
    | .stop r => some r
    | .go st' => loop step fuel st'

/-- `runEllAlgo` etc., shape_profs_algos.pyx:16-514. Outer `none` = not finished after `fuel`
evaluations of the loop condition; inner `none` = ZeroDivisionError. -/
noncomputable def runAlgo (fuel : Nat) (cfg : Config) (morph : Morph) (sc : Scratch) :
    Option (Option (Morph × Scratch)) :=
  loop (loopStep cfg) fuel (start cfg morph sc)

end Verif.Shapes
