import Verif.Stats.Model
import Mathlib.MeasureTheory.Integral.IntervalIntegral.Basic
import Mathlib.Analysis.SpecialFunctions.Complex.Arg
import Mathlib.Analysis.SpecialFunctions.Trigonometric.Basic
import Mathlib.Algebra.Order.Round

/-!
# Mock halos and sample points

cosmic_profiles/mock_tools/mock_halo_gen.py, cosmic_profiles/common/python_routines.py:261-339, 392-497.

Simplifications: real arithmetic; `scipy.integrate.quad` is the integral; the random generator is an
argument (a list of draws); `int32` does not overflow; rank 0 only; printing is left out.
-/

namespace Verif.Mock

/-- Exceptions: an index out of range, a negative size, a division by zero of Python numbers. -/
inductive Err | index | value | zeroDivision
  deriving DecidableEq, Repr

/-- `profile` and `model_pars` without `rho_s`.  Any other name is treated as `nfw` by the code. -/
inductive Prof
  | einasto (alpha rs : ℝ)
  | abg (alpha beta gamma rs : ℝ)
  | hernquist (rs : ℝ)
  | nfw (rs : ℝ)

/-- `getMassIntegrand0`, mock_halo_gen.py:42-60. -/
noncomputable def integrand0 : Prof → ℝ → ℝ
  | .einasto alpha rs, r => 4 * Real.pi * r ^ 2 * Real.exp (-2 / alpha * ((r / rs) ^ alpha - 1))
  | .abg alpha beta gamma rs, r =>
    4 * Real.pi * r ^ 2 / ((r / rs) ^ gamma * (1 + (r / rs) ^ alpha) ^ ((beta - gamma) / alpha))
  | .hernquist rs, r => 4 * Real.pi * r ^ 2 / (r / rs * (1 + r / rs) ^ 3)
  | .nfw rs, r => 4 * Real.pi * r ^ 2 / (r / rs * (1 + r / rs) ^ 2)

/-- `getMassIntegrand`, mock_halo_gen.py:64-72. -/
noncomputable def integrand (rho : ℝ) : Prof → ℝ → ℝ
  | .einasto alpha rs, r => 4 * Real.pi * r ^ 2 * Stats.einasto rho alpha rs r
  | .abg alpha beta gamma rs, r => 4 * Real.pi * r ^ 2 * Stats.alphaBetaGamma rho alpha beta gamma rs r
  | .hernquist rs, r => 4 * Real.pi * r ^ 2 * Stats.hernquist rho rs r
  | .nfw rs, r => 4 * Real.pi * r ^ 2 * Stats.nfw rho rs r

/-- `scipy.integrate.quad(f, lo, hi)[0]`. -/
noncomputable def quad (f : ℝ → ℝ) (lo hi : ℝ) : ℝ := ∫ x in lo..hi, f x

/-- The lower end of all integrals, `1e-8`. -/
noncomputable def start : ℝ := 1 / 10 ^ 8

/-- Python `round` to an integer: half to even. -/
noncomputable def pyRound (x : ℝ) : ℤ :=
  if x - ⌊x⌋ < 1 / 2 then ⌊x⌋
  else if 1 / 2 < x - ⌊x⌋ then ⌊x⌋ + 1
  else if ⌊x⌋ % 2 = 0 then ⌊x⌋ else ⌊x⌋ + 1

/-- `a[::2]`. -/
def everySecond {α : Type} : List α → List α
  | [] => []
  | [x] => [x]
  | x :: _ :: l => x :: everySecond l

/-- `a[::2] if a.shape[0] % 2 == 1 else np.hstack((a[::2], a[-1]))`, mock_halo_gen.py:79.  For an empty array
`a[-1]` is an IndexError; never reached. -/
def coarsen {α : Type} (a : List α) : List α :=
  if a.length % 2 = 1 then everySecond a else everySecond a ++ a.getLast?.toList

/-- Semi-axes of the shells. -/
structure Axes where
  a : List ℝ
  b : List ℝ
  c : List ℝ

/-- mock_halo_gen.py:79-81. -/
def Axes.coarsen (s : Axes) : Axes := ⟨Mock.coarsen s.a, Mock.coarsen s.b, Mock.coarsen s.c⟩

/-- `N1`: lines 75-76 and 82-83; `a[0]`, `a[1]` are an IndexError for fewer than two shells. -/
noncomputable def firstCount (mass : ℝ → ℝ → ℝ) (res tot : ℝ) (a : List ℝ) : Except Err ℤ :=
  match a with
  | a0 :: a1 :: _ => .ok (pyRound (res * mass a0 a1 / tot))
  | _ => .error .index

/-- The loop of lines 78-86 with `count_it = count`; `N1` is the current value.  Terminates because of the
counter. -/
noncomputable def coarsenLoop (mass : ℝ → ℝ → ℝ) (res tot : ℝ) (s : Axes) (N1 : ℤ) (count : Nat) : Except Err (Axes × ℤ) :=
  if N1 = 0 then
    match firstCount mass res tot s.coarsen.a with
    | .error e => .error e
    | .ok N1' =>
      if h : 1000 < count then .error .value
      else coarsenLoop mass res tot s.coarsen N1' (count + 1)
  else .ok (s, N1)
termination_by 1001 - count
decreasing_by omega

/-- `Nptc`, lines 92-97: the numbers of particles of shells `0, 1, …`. -/
noncomputable def counts (mass : ℝ → ℝ → ℝ) (a : List ℝ) (N1 : ℤ) (m1 : ℝ) : List ℤ :=
  List.zipWith (fun lo hi => pyRound (N1 * mass lo hi / m1)) (start :: a) a

/-- A halo: the shells used, particles of each shell, the particle mass and `rho_s`. -/
structure Halo where
  axes : Axes
  counts : List ℤ
  massPtc : ℝ
  rho : ℝ

/-- `genHalo` up to the positions.  `halo_z.shape[0]` is the sum of `Nptc`; a negative entry of `Nptc` makes
`np.zeros((N_reals, dims))` raise a ValueError. -/
noncomputable def genHalo (tot res : ℝ) (p : Prof) (s : Axes) : Except Err Halo :=
  match s.a.getLast? with
  | none => .error .index
  | some aLast =>
    let rho := tot / quad (integrand0 p) start aLast
    let mass := quad (integrand rho p)
    match firstCount mass res tot s.a with
    | .error e => .error e
    | .ok N1 =>
      match coarsenLoop mass res tot s N1 0 with
      | .error e => .error e
      | .ok (s', N1') =>
        match s'.a with
        | a0 :: a1 :: l =>
          let n := counts mass (a0 :: a1 :: l) N1' (mass a0 a1)
          if n.any (· < 0) then .error .value
          else .ok ⟨s', n, mass start ((a0 :: a1 :: l).getLast (by simp)) / (n.sum : ℤ), rho⟩
        | _ => .error .index

/-! ## Points of a shell -/

/-- `np.arctan2(y, x)`. -/
noncomputable def arctan2 (y x : ℝ) : ℝ := Complex.arg ⟨x, y⟩

/-- `np.searchsorted(x, v)`: the number of entries less than `v`, for sorted `x`. -/
noncomputable def searchsorted (x : List ℝ) (v : ℝ) : Nat := (x.filter fun t => t < v).length

/-- `interp1d(x, y)(v)`, linear. -/
noncomputable def interp (x y : List ℝ) (v : ℝ) : ℝ :=
  let hi := min (max (searchsorted x v) 1) (x.length - 1)
  let lo := hi - 1
  (y.getD hi 0 - y.getD lo 0) / (x.getD hi 0 - x.getD lo 0) * (v - x.getD lo 0) + y.getD lo 0

/-- `np.arange(n+1)/n`. -/
noncomputable def knots (n : Nat) : List ℝ := (List.range (n + 1)).map fun j : Nat => (j : ℝ) / n

/-- A draw: the direction of `X` (any vector) and `rand`. -/
structure Draw where
  x : ℝ
  y : ℝ
  z : ℝ
  rand : ℝ

/-- One particle of `drawUniformFromShell`, python_routines.py:446-449, 479-494. -/
noncomputable def place (s : Axes) (p : Draw) : ℝ × ℝ × ℝ :=
  let n := s.a.length
  let theta := arctan2 (Real.sqrt (p.x ^ 2 + p.y ^ 2)) p.z
  let phi := arctan2 p.y p.x
  let at_ := interp (knots n) (0 :: s.a) p.rand
  let bt := interp (knots n) (0 :: s.b) p.rand
  let ct := interp (knots n) (0 :: s.c) p.rand
  (Real.sin theta * Real.cos phi * at_, Real.sin theta * Real.sin phi * bt, Real.cos theta * ct)

/-- `inShell`, python_routines.py:392-417. -/
noncomputable def inShell (p : ℝ × ℝ × ℝ) (s : Axes) (k : Nat) : Bool :=
  if 0 < k then
    decide ((p.1 / s.a.getD k 0) ^ 2 + (p.2.1 / s.b.getD k 0) ^ 2 + (p.2.2 / s.c.getD k 0) ^ 2 ≤ 1) &&
    decide ((p.1 / s.a.getD (k - 1) 0) ^ 2 + (p.2.1 / s.b.getD (k - 1) 0) ^ 2 + (p.2.2 / s.c.getD (k - 1) 0) ^ 2 > 1)
  else decide ((p.1 / s.a.getD k 0) ^ 2 + (p.2.1 / s.b.getD k 0) ^ 2 + (p.2.2 / s.c.getD k 0) ^ 2 ≤ 1)

/-! ## Points of an ellipsoid: `drawUniformFromEllipsoid`, python_routines.py:341-390 -/

/-- One point for three dimensions: a normal vector `g ≠ 0`, a uniform number `w`.  `cholesky` of the diagonal
matrix has the diagonal `1/a, 1/b, 1/c`; `inv(L.T)` has `a, b, c`. -/
noncomputable def ellipsoidPoint (a b c : ℝ) (g : ℝ × ℝ × ℝ) (w : ℝ) : ℝ × ℝ × ℝ :=
  let norm := Real.sqrt (g.1 ^ 2 + g.2.1 ^ 2 + g.2.2 ^ 2)
  let R := w ^ ((1 : ℝ) / 3)
  let z := (R * g.1 / norm, R * g.2.1 / norm, R * g.2.2 / norm)
  ((Real.sqrt (1 / a ^ 2))⁻¹ * z.1, (Real.sqrt (1 / b ^ 2))⁻¹ * z.2.1, (Real.sqrt (1 / c ^ 2))⁻¹ * z.2.2)

/-! ## Fibonacci points, python_routines.py:261-285, 308-339 -/

/-- The golden angle. -/
noncomputable def golden : ℝ := Real.pi * (3 - Real.sqrt 5)

/-- One point of `fibonacci_ellipsoid`; `float(samples - 1)` is zero for one sample. -/
noncomputable def fibPoint (a b c : ℝ) (samples i : Nat) : Except Err (ℝ × ℝ × ℝ) :=
  if samples = 1 then .error .zeroDivision
  else
    let y := 1 - ((i : ℝ) / ((samples : ℝ) - 1)) * 2
    let radius := Real.sqrt (1 - y * y)
    let theta := golden * i
    .ok (Real.cos theta * radius * a, y * b, Real.sin theta * radius * c)

/-- `fibonacci_ellipsoid(a, b, c, samples)`. -/
noncomputable def fibonacciEllipsoid (a b c : ℝ) (samples : Nat) : Except Err (List (ℝ × ℝ × ℝ)) :=
  (List.range samples).mapM (fibPoint a b c samples)

/-- `fibonacci_sphere(samples)`: the same code without the factors. -/
noncomputable def fibSphere (samples i : Nat) : Except Err (ℝ × ℝ × ℝ) :=
  if samples = 1 then .error .zeroDivision
  else
    let y := 1 - ((i : ℝ) / ((samples : ℝ) - 1)) * 2
    let radius := Real.sqrt (1 - y * y)
    let theta := golden * i
    .ok (Real.cos theta * radius, y, Real.sin theta * radius)

/-- python_routines.py:261-289. -/
noncomputable def fibonacciSphere (samples : Nat) : Except Err (List (ℝ × ℝ × ℝ)) :=
  (List.range samples).mapM (fibSphere samples)

end Verif.Mock
