import Verif.Periodic.Model
import Mathlib.Analysis.SpecialFunctions.Trigonometric.Basic
import Mathlib.Analysis.SpecialFunctions.Pow.Real

/-!
# Model of density and enclosed-mass profiles

* `calcDensProfBruteForceSph/Ell`, `calcMenclsBruteForceSph/Ell`, `calcKTilde`
  (`cosmic_profiles/cython_helpers/helper_class.pyx:201-428`)
* bin edges and index handling of `calcDensProfsSphDirectBinning`, `calcDensProfsEllDirectBinning`,
  `calcDensProfsKernelBased` (`cosmic_profiles/dens_profs/dens_profs_algos.pyx`)

Real arithmetic instead of floating point.
-/

namespace Verif.Binning

/-- State of the loop over particles: scratch array, `corr_s`, `pts_in_shell`. -/
structure ScanState where
  shell : List Nat
  corr : Nat
  pts : Nat

/-- One iteration `i`: helper_class.pyx:231-236 (also 283-296, 339-343, 396-405). -/
def scanStep (inside : Nat → Bool) (s : ScanState) (i : Nat) : ScanState :=
  if inside i then { s with shell := s.shell.set (i - s.corr) i, pts := s.pts + 1 }
  else { s with corr := s.corr + 1 }

/-- The loop over all `n` particles, collecting the numbers of those inside the bin at the start of
the scratch array. -/
def scan (inside : Nat → Bool) (n : Nat) (shell : List Nat) : ScanState :=
  (List.range n).foldl (scanStep inside) ⟨shell, 0, 0⟩

/-- Squared distance from the center, as written in the code. -/
def dist2 (center : Vec ℝ) (x : Vec ℝ) : ℝ :=
  (center 0 - x 0) ^ 2 + (center 1 - x 1) ^ 2 + (center 2 - x 2) ^ 2

/-- Unchecked reads (`boundscheck(False)`); out-of-range reads, which the theorems exclude, give 0. -/
noncomputable def at0 (l : List ℝ) (i : Nat) : ℝ := l[i]?.getD 0

/-- `masses[j]`. -/
noncomputable def massAt (ps : List (Particle ℝ)) (j : Nat) : ℝ :=
  ((ps[j]?).map fun p => p.mass).getD 0

/-- Accumulation `for n in range(pts): acc += f(masses[shell[n]])`, helper_class.pyx:237-239. -/
noncomputable def accumulate (ps : List (Particle ℝ)) (s : ScanState) (f : ℝ → ℝ) : ℝ :=
  (List.range s.pts).foldl (fun acc n =>
    acc + f (((s.shell[n]?).map (massAt ps)).getD 0)) 0

/-- Membership test of the spherical profile, helper_class.pyx:232. -/
noncomputable def inSph (ps : List (Particle ℝ)) (center : Vec ℝ) (r200 lo hi : ℝ) (i : Nat) : Bool :=
  (ps[i]?).any fun p =>
    decide (dist2 center p.pos < (hi * r200) ^ 2 ∧ dist2 center p.pos ≥ (lo * r200) ^ 2)

/-- `calcDensProfBruteForceSph`, helper_class.pyx:204-241.  The profile array is zero on entry; the
scratch array is handed from bin to bin. Result: the profile and the scratch array. -/
noncomputable def densProfSph (ps : List (Particle ℝ)) (center : Vec ℝ) (r200 : ℝ)
    (edges : List ℝ) (shell : List Nat) : List ℝ × List Nat :=
  (List.range (edges.length - 1)).foldl (fun st r =>
    let s := scan (inSph ps center r200 (at0 edges r) (at0 edges (r + 1))) ps.length st.2
    (st.1 ++ [accumulate ps s fun m =>
      m / (4 / 3 * Real.pi * ((at0 edges (r + 1) * r200) ^ 3 - (at0 edges r * r200) ^ 3))],
     s.shell)) ([], shell)

/-- Membership test of the enclosed mass, helper_class.pyx:339. -/
noncomputable def inBall (ps : List (Particle ℝ)) (center : Vec ℝ) (r200 r : ℝ) (i : Nat) : Bool :=
  (ps[i]?).any fun p => decide (dist2 center p.pos < (r * r200) ^ 2)

/-- `calcMenclsBruteForceSph`, helper_class.pyx:311-348. -/
noncomputable def menclSph (ps : List (Particle ℝ)) (center : Vec ℝ) (r200 : ℝ)
    (radii : List ℝ) (shell : List Nat) : List ℝ × List Nat :=
  (List.range radii.length).foldl (fun st r =>
    let s := scan (inBall ps center r200 (at0 radii r)) ps.length st.2
    (st.1 ++ [accumulate ps s fun m => m], s.shell)) ([], shell)

/-! ## Ellipsoidal bins -/

/-- Semi-axes of an ellipsoid. -/
structure Axes where
  a : ℝ
  b : ℝ
  c : ℝ

/-- Directions of the axes (not necessarily normalised), at a bin center. -/
structure Frame where
  major : Vec ℝ
  inter : Vec ℝ
  minor : Vec ℝ

/-- Component of `x - center` along `v/|v|`, helper_class.pyx:285-290. -/
noncomputable def component (v center x : Vec ℝ) : ℝ :=
  let n := Real.sqrt (v 0 ^ 2 + v 1 ^ 2 + v 2 ^ 2)
  v 0 / n * (x 0 - center 0) + v 1 / n * (x 1 - center 1) + v 2 / n * (x 2 - center 2)

/-- `(x/a)**2 + (y/b)**2 + (z/c)**2` in the principal frame. -/
noncomputable def level (f : Frame) (center : Vec ℝ) (e : Axes) (x : Vec ℝ) : ℝ :=
  (component f.major center x / e.a) ^ 2 + (component f.inter center x / e.b) ^ 2 +
    (component f.minor center x / e.c) ^ 2

/-- Membership test of the ellipsoidal profile, helper_class.pyx:291. -/
noncomputable def inEll (ps : List (Particle ℝ)) (center : Vec ℝ) (f : Frame) (lo hi : Axes)
    (i : Nat) : Bool :=
  (ps[i]?).any fun p => decide (level f center hi p.pos < 1 ∧ level f center lo p.pos ≥ 1)

/-- `calcDensProfBruteForceEll`, helper_class.pyx:246-306, for the list of bins
`(frame at the bin center, inner ellipsoid, outer ellipsoid)`; `none` = NaN (empty bin). -/
noncomputable def densProfEll (ps : List (Particle ℝ)) (center : Vec ℝ)
    (bins : List (Frame × Axes × Axes)) (shell : List Nat) : List (Option ℝ) × List Nat :=
  bins.foldl (fun st bin =>
    let lo := bin.2.1
    let hi := bin.2.2
    let s := scan (inEll ps center bin.1 lo hi) ps.length st.2
    (st.1 ++ [if s.pts ≠ 0 then some (accumulate ps s fun m =>
      m / (4 / 3 * Real.pi * hi.a * hi.b * hi.c - 4 / 3 * Real.pi * lo.a * lo.b * lo.c)) else none],
     s.shell)) ([], shell)

/-! ## Bin edges -/

/-- `(r[:-1] + r[1:])/2`. -/
noncomputable def midpoints : List ℝ → List ℝ
  | a :: b :: l => (a + b) / 2 :: midpoints (b :: l)
  | _ => []

/-- Edges of spherical bins, dens_profs_algos.pyx:82 (`none` = IndexError for no radii). -/
noncomputable def sphEdges (r : List ℝ) : Option (List ℝ) :=
  r.getLast?.map fun last => 1e-8 :: (midpoints r ++ [last])

/-- Edges of ellipsoidal bins, dens_profs_algos.pyx:152-153; `none` = IndexError or the ValueError for
fewer than 3 radii (cosmic_base_class.pyx:859-860). -/
noncomputable def ellEdges (r : List ℝ) : Option (List ℝ) :=
  match midpoints r, r.getLast? with
  | m0 :: m1 :: ms, some last => some (m0 * m0 / m1 :: (m0 :: m1 :: ms ++ [last]))
  | _, _ => none

/-! ## Index handling of the ellipsoidal profile -/

/-- `idx_cat[a:b] = v` (broadcast of one number over a slice). -/
def fillSlice {P : Type} (l : List P) (a b : Nat) (v : P) : List P :=
  (l.zipIdx).map fun xi => if a ≤ xi.2 ∧ xi.2 < b then v else xi.1

/-- The statement `idx_cat.base[offsets[p]:offsets[p+1]] = np.array(idx_cat[p])` for `p = p0, p0+1, …`
(`sizes` are the sizes of these objects, `off` is the offset of the first),
dens_profs_algos.pyx:169-170. -/
def overwriteLoop {P : Type} (idxCat : List P) (p0 off : Nat) : List Nat → Option (List P)
  | [] => some idxCat
  | n :: sizes =>
    match idxCat[p0]? with
    | none => none
    | some v => overwriteLoop (fillSlice idxCat off (off + n) v) (p0 + 1) (off + n) sizes

/-- The particle index list `calcDensProfsEllDirectBinning` works with after the interpolation loop. -/
def ellIdxCat {P : Type} (idxCat : List P) (sizes : List Nat) : Option (List P) :=
  overwriteLoop idxCat 0 0 sizes

/-! ## Kernel-based profile -/

/-- `calcKTilde`, helper_class.pyx:417-428. -/
noncomputable def kTilde (r ri h : ℝ) : ℝ :=
  1 / (2 * (2 * Real.pi) ^ ((3 : ℝ) / 2)) * (r * ri / h ^ 2)⁻¹ *
    (Real.exp (-(ri - r) ^ 2 / (2 * h ^ 2)) - Real.exp (-(ri + r) ^ 2 / (2 * h ^ 2)))

/-- Kernel width of a particle at distance `d`, dens_profs_algos.pyx:275. -/
noncomputable def kernelWidth (r200 d : ℝ) : ℝ := 0.005 * r200 * (d / (0.1 * r200)) ^ (0.5 : ℝ)

/-- `calcDensProfsKernelBased` for one object with the given (mass, distance) pairs, at radius `r`,
dens_profs_algos.pyx:274-279. -/
noncomputable def densKernel (r200 : ℝ) (ps : List (ℝ × ℝ)) (r : ℝ) : ℝ :=
  ps.foldl (fun acc md =>
    acc + md.1 * kTilde r md.2 (kernelWidth r200 md.2) / kernelWidth r200 md.2 ^ 3) 0

end Verif.Binning
