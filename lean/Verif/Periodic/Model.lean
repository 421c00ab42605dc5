import Verif.Geometry.Vec
import Mathlib.Analysis.SpecialFunctions.Sqrt

/-!
# Model of the periodic-boundary, centre-of-mass and mode routines

* `respectPBCNoRef`, `calcCoM`, `recentreObject`, `calcMode`
  (`cosmic_profiles/common/python_routines.py`)
* `CythonHelpers.respectPBCNoRef`, `CythonHelpers.calcCoM`
  (`cosmic_profiles/cython_helpers/helper_class.pyx`)
* `respectPBC` (`cosmic_profiles/common/cosmo_tools.py`)

Exact arithmetic instead of floating point.  The random choice of particles
(`rng.choice(..., replace = False)`) is an arbitrary list `choose` of particle numbers.
-/

set_option linter.unusedSectionVars false

namespace Verif.Periodic

variable {K : Type} [Field K] [LinearOrder K] [IsStrictOrderedRing K]

/-- `np.average(xyz[choose], axis = 0)`, python_routines.py:515-516 and 541-542.  (Indices beyond the
end, which `rng.choice` never yields, are ignored.) -/
def reference (choose : List Nat) (xyz : List (Vec K)) : Vec K := fun i =>
  ((choose.filterMap fun j => xyz[j]?).map fun p => p i).sum /
    ((choose.filterMap fun j => xyz[j]?).length : K)

/-- One axis of `respectPBCNoRef`, python_routines.py:517-525: `dist` is computed first, then the
two masked assignments are made. -/
def unwrapAxis (L ref x : K) : K :=
  let dist := x - ref
  let x1 := if dist > L / 2 then x - L else x
  if dist < -L / 2 then x1 + L else x1

/-- `respectPBCNoRef`, python_routines.py:499-528. -/
def respectPBCNoRef (choose : List Nat) (xyz : List (Vec K)) (L : K) : List (Vec K) :=
  if L ≠ 0 then
    let ref := reference choose xyz
    xyz.map fun p i => unwrapAxis L (ref i) (p i)
  else xyz

/-- `calcCoM`, python_routines.py:530-547. -/
def calcCoM (choose : List Nat) (ps : List (Particle K)) : Vec K :=
  let ref := reference choose (ps.map fun p => p.pos)
  let massTotal := (ps.map fun p => p.mass).sum
  fun i => (ps.map fun p => p.mass * (p.pos i - ref i) / massTotal).sum + ref i

/-- `CythonHelpers.calcCoM`, helper_class.pyx:85-107: two accumulation loops. -/
def cyCalcCoM (ps : List (Particle K)) : Vec K :=
  let massTotal := ps.foldl (fun acc p => acc + p.mass) 0
  ps.foldl (fun com p i => com i + p.mass * p.pos i / massTotal) 0

/-- One axis of `recentreObject`, python_routines.py:559-564: the second mask is computed from the
updated array. -/
def recentreAxis (L x : K) : K :=
  let x1 := if x ≥ L then x - L else x
  if x1 < 0 then x1 + L else x1

/-- `recentreObject`, python_routines.py:549-565. -/
def recentreObject (xyz : List (Vec K)) (L : K) : List (Vec K) :=
  xyz.map fun p i => recentreAxis L (p i)

/-- Loop body of `CythonHelpers.respectPBCNoRef`, helper_class.pyx:187-198, for row `p` with reference
row `r`.  The third test repeats the second coordinate, as in the code. -/
def cyReflect (L : K) (r p : Vec K) : Vec K :=
  let p1 : Vec K := if |r 0 - p 0| > L / 2 then ![L - p 0, p 1, p 2] else p
  let p2 : Vec K := if |r 1 - p1 1| > L / 2 then ![p1 0, L - p1 1, p1 2] else p1
  if |r 1 - p2 1| > L / 2 then ![p2 0, p2 1, L - p2 2] else p2

/-- The loop `for i in range(xyz.shape[0])`, modifying the array in place; `fuel` iterations are left.
Row 0 is read afresh in every iteration (for `i = 0` the reference is the row itself). -/
def cyLoop (L : K) (xyz : List (Vec K)) (i : Nat) : Nat → List (Vec K)
  | 0 => xyz
  | n + 1 =>
    match xyz[0]?, xyz[i]? with
    | some r, some p => cyLoop L (xyz.set i (cyReflect L r p)) (i + 1) n
    | _, _ => xyz

/-- `CythonHelpers.respectPBCNoRef`, helper_class.pyx:169-199. -/
def cyRespectPBCNoRef (xyz : List (Vec K)) (L : K) : List (Vec K) :=
  if L = 0 then xyz else cyLoop L xyz 0 xyz.length

/-! ## Mode -/

/-- Euclidean distance, `np.linalg.norm`. -/
noncomputable def dist (a b : Vec ℝ) : ℝ :=
  Real.sqrt ((a 0 - b 0) ^ 2 + (a 1 - b 1) ^ 2 + (a 2 - b 2) ^ 2)

/-- `calcMode`, python_routines.py:287-306 (the same function is defined in cosmo_tools.py:15-34).
The recursion takes fuel, which plays the role of the interpreter's recursion limit; `none` =
recursion limit exceeded. -/
noncomputable def calcMode : Nat → List (Particle ℝ) → ℝ → Option (Vec ℝ)
  | 0, _, _ => none
  | fuel + 1, ps, rad =>
    let com : Vec ℝ := fun i => (ps.map fun p => p.pos i * p.mass).sum / (ps.map fun p => p.mass).sum
    let inside := ps.filter fun p => decide (dist p.pos com < rad)
    if inside.length < 5 then some com
    else calcMode fuel inside (rad * 0.83)

end Verif.Periodic
