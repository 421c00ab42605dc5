import Verif.Periodic.Model
import Mathlib.Analysis.SpecialFunctions.Pow.Real
import Mathlib.Analysis.SpecialFunctions.Trigonometric.Basic

/-!
# Model of the statistics routines

* `getBlocks`, `M_split`, `chiSquareToICore`, `chiSquareToIMultiDim`, `getMeanOrMedianAndError`
  (`cosmic_profiles/common/cosmo_tools.py`)
* `getEpsilon`, `getShape`, `getShapeMs`, the triaxiality histograms
  (`cosmic_profiles/shape_profs/shape_profs_tools.py`)
* mass bins and profile models (`cosmic_profiles/dens_profs/dens_profs_tools.py`)

Exact arithmetic instead of floating point; NaN is `none` where it can occur.
-/

namespace Verif.Stats

/-! ## Blocks and mass splitting -/

/-- `len(range(0, len, n))` for `n > 0`. -/
def rangeCount (len n : Nat) : Nat := (len + n - 1) / n

/-- `list(getBlocks(lst, n))`, cosmo_tools.py:209-219.  `none` = `ValueError` (step 0); a negative step
gives an empty range. -/
def getBlocks {α : Type} (lst : List α) (n : Int) : Option (List (List α)) :=
  if n = 0 then none
  else if n < 0 then some []
  else some ((List.range (rangeCount lst.length n.toNat)).map fun i =>
    (lst.drop (i * n.toNat)).take n.toNat)

/-- Results of `M_split` (without `v`). -/
structure Split (K C : Type) where
  edges : List K
  mGroups : List (List K)
  centerGroups : List (List C)
  idxGroups : List (List Nat)
deriving DecidableEq

/-- `chunk_size`, cosmo_tools.py:249-252; `//` and `%` are floored. -/
def chunkSize (n : Nat) (nb : Int) : Int :=
  if Int.fmod n nb = 0 then Int.fdiv n nb else Int.fdiv n nb + 1

/-- `M_split`, cosmo_tools.py:221-270, without the optional quantity `v` (no caller passes it).
`args` is the result of `np.argsort(m)`; `np.sort(m)` is `m` in that order.  `none` = exception
(`NB_BINS = 0`, or `m_ordered[-1]` of an empty list). -/
def mSplit {K C : Type} (args : List Nat) (m : List K) (center : List C) (nb : Int) :
    Option (Split K C) :=
  if nb = 0 then none
  else
    let mOrdered := args.filterMap fun i => m[i]?
    let chunk := chunkSize m.length nb
    if chunk = 0 then some ⟨[], [], [], []⟩
    else (getBlocks mOrdered chunk).bind fun mGroups =>
      (getBlocks (args.filterMap fun i => center[i]?) chunk).bind fun cGroups =>
        ((List.range (mGroups.length + 1)).mapM fun i =>
          if i = mGroups.length then mOrdered.getLast? else mOrdered[i * chunk.toNat]?).bind fun edges =>
          some ⟨edges, mGroups, cGroups, (List.range mGroups.length).map fun j =>
            let start := ((mGroups.take j).map List.length).sum
            (List.range ((mGroups[j]?.map List.length).getD 0)).filterMap fun i => args[start + i]?⟩

/-- `np.argsort(m)`: some permutation of the indices which sorts `m` (no stability is assumed). -/
def IsArgsort {K : Type} [LE K] (args : List Nat) (m : List K) : Prop :=
  args.Perm (List.range m.length) ∧ (args.filterMap fun i => m[i]?).Pairwise (· ≤ ·)

/-- Condition for an object of mass `x` to enter the plots of group `g`,
dens_profs_tools.py:189 (`obj_pass_m`). -/
def passes {K : Type} [LT K] (edges : List K) (g : Nat) (x : K) : Prop :=
  ∃ lo hi, edges[g]? = some lo ∧ edges[g + 1]? = some hi ∧ lo < x ∧ x < hi

/-! ## Averages -/

open Classical in
/-- `np.argmin` of an array with possible NaN entries: the first NaN if there is one, otherwise the
first minimum. -/
noncomputable def argmin (l : List (Option ℝ)) : Nat :=
  if none ∈ l then l.findIdx fun x => decide (x = none)
  else
    l.findIdx fun x => decide (∀ y ∈ l, ∀ a b, x = some a → y = some b → a ≤ b)

/-- `(np.abs(r_over_r200 - x)).argmin()`. -/
noncomputable def closest (rs : List ℝ) (x : Option ℝ) : Nat :=
  argmin (rs.map fun r => x.map fun x => |r - x|)

/-- One object: `d` and the parameter of interest at all radii, and `r200`. -/
structure ShapeRow where
  d : List (Option ℝ)
  par : List (Option ℝ)
  r200 : ℝ

/-- Append `v` to the list number `k`. -/
def push (y : List (List ℝ)) (k : Nat) (v : ℝ) : List (List ℝ) := y.modify k (· ++ [v])

/-- Inner loop body of `getShape`, shape_profs_tools.py:84-89. -/
noncomputable def shapeStep (rs : List ℝ) (row : ShapeRow) (y : List (List ℝ)) (rad : Nat) :
    List (List ℝ) :=
  let k := closest rs ((row.d[rad]?.join).map (· / row.r200))
  match row.par[rad]?.join with
  | none => y
  | some v => push y k v

/-- Lists of values at each radius, `getShape`, shape_profs_tools.py:81-89 (and `getShapeMs`, 94-101, for
the objects of one group). -/
noncomputable def collectShape (rs : List ℝ) (rows : List ShapeRow) : List (List ℝ) :=
  rows.foldl (fun y row => (List.range rs.length).foldl (shapeStep rs row) y)
    (rs.map fun _ => [])

/-- `np.median`: middle of the sorted values; `none` = NaN for an empty list (cosmo_tools.py:203). -/
noncomputable def median (z : List ℝ) : Option ℝ :=
  if z = [] then none
  else
    let s := z.mergeSort (fun a b => decide (a ≤ b))
    let n := s.length
    if n % 2 = 1 then s[n / 2]? else
      (s[n / 2 - 1]?).bind fun a => (s[n / 2]?).map fun b => (a + b) / 2

/-- `np.quantile(z, p)` with linear interpolation (numpy's default); `none` for an empty list. -/
noncomputable def quantile (z : List ℝ) (p : ℝ) : Option ℝ :=
  let s := z.mergeSort (fun a b => decide (a ≤ b))
  let h := ((s.length : ℝ) - 1) * p
  let lo := ⌊h⌋₊
  (s[lo]?).bind fun a =>
    if lo + 1 < s.length then (s[lo + 1]?).map fun b => a + (h - lo) * (b - a) else some a

/-- Error bars for `ERROR_METHOD = "median_quantile"`, cosmo_tools.py:204-205 (`p = 0.25` below,
`p = 0.75` above); `none` = NaN. -/
noncomputable def quantileError (z : List ℝ) (p : ℝ) : Option ℝ :=
  if z = [] then none else (quantile z p).map (· / Real.sqrt z.length)

/-- `np.average`; `none` = NaN (empty list). -/
noncomputable def mean (z : List ℝ) : Option ℝ := if z = [] then none else some (z.sum / z.length)

/-- Error bar for `ERROR_METHOD = "SEM"`, cosmo_tools.py:199: `np.std(z, ddof=1) / np.sqrt(len(z))`;
`none` = NaN (fewer than two values). -/
noncomputable def semError (z : List ℝ) : Option ℝ :=
  if z.length < 2 then none
  else
    let m := z.sum / z.length
    some (Real.sqrt ((z.map fun x => (x - m) ^ 2).sum / ((z.length : ℝ) - 1)) / Real.sqrt z.length)

/-- `np.std(l, ddof=1)`; `none` = NaN (fewer than two values). -/
noncomputable def stdOne (l : List ℝ) : Option ℝ :=
  if l.length < 2 then none
  else some (Real.sqrt ((l.map fun x => (x - l.sum / l.length) ^ 2).sum / ((l.length : ℝ) - 1)))

/-- Average of one resampled bin, cosmo_tools.py:192-193: `draw seed n` are the numbers of the values drawn by
`sklearn.utils.resample` (which depend on the seed and on the number of values only). -/
noncomputable def bootAverage (draw : Nat → Nat → List Nat) (z : List ℝ) (seed : Nat) : Option ℝ :=
  mean ((draw seed z.length).filterMap fun i => z[i]?)

/-- Error bar for `ERROR_METHOD = "bootstrap"`, cosmo_tools.py:187-196, for one non-empty bin (for an empty bin
`resample` fails or not depending on the version of scikit-learn: not modelled); `none` = NaN. -/
noncomputable def bootError (draw : Nat → Nat → List Nat) (nReal : Nat) (z : List ℝ) : Option ℝ :=
  ((List.range nReal).mapM (bootAverage draw z)).bind stdOne

/-- `getMeanOrMedianAndError`, cosmo_tools.py:174-206: averages and errors below and above, bin by bin; `none` is
AssertionError. -/
noncomputable def meanOrMedianAndError (draw : Nat → Nat → List Nat) (nReal : Nat) (y : List (List ℝ))
    (method : String) : Option (List (Option ℝ) × List (Option ℝ) × List (Option ℝ)) :=
  if method = "bootstrap" then
    some (y.map mean, y.map (bootError draw nReal), y.map (bootError draw nReal))
  else if method = "SEM" then some (y.map mean, y.map semError, y.map semError)
  else if method = "median_quantile" then
    some (y.map median, y.map (fun z => quantileError z (1 / 4)), y.map fun z => quantileError z (3 / 4))
  else none

/-- `getShape`, shape_profs_tools.py:64-90; `none` is AssertionError. -/
noncomputable def getShape (draw : Nat → Nat → List Nat) (nReal : Nat) (rs : List ℝ) (rows : List ShapeRow)
    (method : String) : Option (List (Option ℝ) × List (Option ℝ) × List (Option ℝ)) :=
  meanOrMedianAndError draw nReal (collectShape rs rows) method

/-- `getShapeMs`, shape_profs_tools.py:92-103, for the group of objects `idx_groups[group]` (the argument
`ERROR_METHOD` is not used). -/
noncomputable def getShapeMs (draw : Nat → Nat → List Nat) (nReal : Nat) (rs : List ℝ) (rows : List ShapeRow)
    (group : List Nat) (_method : String) : Option (List (Option ℝ) × List (Option ℝ) × List (Option ℝ)) :=
  meanOrMedianAndError draw nReal (collectShape rs (group.filterMap fun i => rows[i]?)) "median_quantile"

/-! ## Triaxiality histograms -/

/-- A floating-point result: NaN, a number, or infinity with a sign. -/
inductive Num where
  | nan
  | fin (x : ℝ)
  | inf (positive : Bool)

/-- numpy division of two finite numbers. -/
noncomputable def npDiv (x y : ℝ) : Num :=
  if y = 0 then (if x = 0 then .nan else .inf (decide (0 < x))) else .fin (x / y)

/-- `(1-q**2)/(1-s**2)`, shape_profs_tools.py:181, 277, 332. -/
noncomputable def triaxiality : Option ℝ → Option ℝ → Num
  | some q, some s => npDiv (1 - q ^ 2) (1 - s ^ 2)
  | _, _ => .nan

/-- `np.nan_to_num(t)`; `big` is the largest floating-point number. -/
noncomputable def nanToNum (big : ℝ) : Num → ℝ
  | .nan => 0
  | .fin x => x
  | .inf true => big
  | .inf false => -big

/-- `t[t == 0.] = np.nan`; what is left enters the histogram and the printed average. -/
noncomputable def histValue (big : ℝ) (t : Num) : Option ℝ :=
  if nanToNum big t = 0 then none else some (nanToNum big t)

/-- The entry of one object in `getLocalTHist`, shape_profs_tools.py:270-285. -/
noncomputable def localT (big : ℝ) (d q s : List (Option ℝ)) (r200 frac : ℝ) : Option ℝ :=
  let idx := argmin (d.map fun x => x.map fun x => |x - r200 * frac|)
  histValue big (triaxiality (q[idx]?.join) (s[idx]?.join))

/-- The entry of one object in `getGlobalTHist`, shape_profs_tools.py:328-339 (one column). -/
noncomputable def globalT (big : ℝ) (q s : Option ℝ) : Option ℝ := histValue big (triaxiality q s)

/-! ## Chi-square -/

/-- `occs[:,d_bin].sum()`. -/
def colSum (occs : List (List ℝ)) (b : Nat) : ℝ := (occs.map fun row => row.getD b 0).sum

/-- `occs.flatten().sum()`. -/
def total (occs : List (List ℝ)) : ℝ := (occs.map List.sum).sum

/-- One term of the double loop, cosmo_tools.py:145-148. -/
noncomputable def chiTerm (occs : List (List ℝ)) (row : List ℝ) (b : Nat) : ℝ :=
  let expect := row.sum * colSum occs b / total occs
  if expect ≠ 0 then (row.getD b 0 - expect) ^ 2 / expect else 0

/-- The statistic of `chiSquareToICore`, cosmo_tools.py:129-151, for `nb` bins; `none` = NaN.  The
p-value (scipy) is not modelled. -/
noncomputable def chiSquare (occs : List (List ℝ)) (nb : Nat) : Option ℝ :=
  if ∀ row ∈ occs, ∀ x ∈ row, x = 0 then none
  else some (occs.foldl (fun acc row => (List.range nb).foldl (fun acc b => acc + chiTerm occs row b) acc)
    0)

/-- `np.linspace(0.0, 1.0, 10)`, cosmo_tools.py:76-78. -/
noncomputable def yAxis : List ℝ := (List.range 10).map fun k : Nat => (k : ℝ) / 9

/-- Counting loop of `chiSquareToIMultiDim` for one sample, cosmo_tools.py:79-85. -/
noncomputable def countBins (x : List (List ℝ)) : List ℝ :=
  x.zipIdx.foldl (fun occ (pts, bin) =>
    pts.foldl (fun occ pt => occ.modify (10 * bin + closest yAxis (some pt)) (· + 1)) occ)
    (List.replicate (x.length * 10) 0)

/-- `chiSquareToIMultiDim`, cosmo_tools.py:58-86; outer `none` = `AssertionError`. -/
noncomputable def chiSquareMultiDim (x y : List (List ℝ)) : Option (Option ℝ) :=
  if x.length = y.length then some (chiSquare [countBins x, countBins y] (x.length * 10)) else none

/-! ## Ellipticity -/

/-- `R.from_rotvec(angle * np.array([0, 0, 1])).as_matrix()` applied to a vector. -/
noncomputable def rotateZ (angle : ℝ) (v : Vec ℝ) : Vec ℝ :=
  ![Real.cos angle * v 0 - Real.sin angle * v 1, Real.sin angle * v 0 + Real.cos angle * v 1, v 2]

/-- Entry of the shape tensor, shape_profs_tools.py:53. -/
noncomputable def moment (center : Vec ℝ) (angle : ℝ) (ps : List (Particle ℝ)) (i j : Fin 3) : ℝ :=
  (ps.map fun p => p.mass * (rotateZ angle (p.pos - center) i * rotateZ angle (p.pos - center) j)).sum /
    (ps.map fun p => p.mass).sum

/-- The ellipticity of one object about a given center, shape_profs_tools.py:50-57; `none` = NaN
(for non-negative masses every zero denominator meets a zero numerator). -/
noncomputable def epsilonAbout (center : Vec ℝ) (angle : ℝ) (ps : List (Particle ℝ)) : Option ℂ :=
  let qxx := moment center angle ps 0 0
  let qyy := moment center angle ps 1 1
  let qxy := moment center angle ps 0 1
  if (ps.map fun p => p.mass).sum = 0 ∨ qxx + qyy = 0 then none
  else some (((qxx - qyy) / (qxx + qyy) : ℝ) + Complex.I * ((2 * qxy / (qxx + qyy) : ℝ)))

/-- `max(xyz_[:,i]) - min(xyz_[:,i])`. -/
noncomputable def extent (ps : List (Particle ℝ)) (i : Fin 3) : ℝ :=
  (ps.map fun p => p.pos i).foldr max ((ps.map fun p => p.pos i).headD 0) -
    (ps.map fun p => p.pos i).foldr min ((ps.map fun p => p.pos i).headD 0)

/-- The loop body of `getEpsilon`, shape_profs_tools.py:43-57.  `choose n` are the random particle
numbers drawn for `n` particles (seed 0 in every call), `fuel` the recursion limit of `calcMode`; the
outer `none` = exception. -/
noncomputable def epsilon (choose : Nat → List Nat) (fuel : Nat) (mode : Bool) (L angle : ℝ)
    (ps : List (Particle ℝ)) : Option (Option ℂ) :=
  let xyz := Periodic.respectPBCNoRef (choose ps.length) (ps.map fun p => p.pos) L
  let ps' := List.zipWith (fun x p => (⟨x, p.mass⟩ : Particle ℝ)) xyz ps
  if mode then
    (Periodic.calcMode fuel ps' (max (extent ps' 0) (max (extent ps' 1) (extent ps' 2)))).map
      fun c => epsilonAbout c angle ps'
  else some (epsilonAbout (Periodic.calcCoM (choose ps.length) ps') angle ps')

/-! ## Density profile models -/

/-- `getEinastoProf`, dens_profs_tools.py:22-35. -/
noncomputable def einasto (rho alpha rs r : ℝ) : ℝ := rho * Real.exp (-2 / alpha * ((r / rs) ^ alpha - 1))

/-- `getAlphaBetaGammaProf`, dens_profs_tools.py:37-52. -/
noncomputable def alphaBetaGamma (rho alpha beta gamma rs r : ℝ) : ℝ :=
  rho / ((r / rs) ^ gamma * (1 + (r / rs) ^ alpha) ^ ((beta - gamma) / alpha))

/-- `getNFWProf`, dens_profs_tools.py:54-66. -/
noncomputable def nfw (rho rs r : ℝ) : ℝ := rho / (r / rs * (1 + r / rs) ^ 2)

/-- `getHernquistProf`, dens_profs_tools.py:68-80. -/
noncomputable def hernquist (rho rs r : ℝ) : ℝ := rho / (r / rs * (1 + r / rs) ^ 3)

end Verif.Stats
