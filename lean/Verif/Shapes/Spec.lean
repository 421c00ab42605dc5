import Verif.Shapes.Model

/-!
# Specification of shapes

What a reported shape means, in terms of the particles only.
-/

namespace Verif.Shapes

/-- Scalar product. -/
def dot (u v : Vec ℝ) : ℝ := u 0 * v 0 + u 1 * v 1 + u 2 * v 2

/-- Three orthonormal axes. -/
def Orthonormal (major inter minor : Vec ℝ) : Prop :=
  dot major major = 1 ∧ dot inter inter = 1 ∧ dot minor minor = 1 ∧
  dot major inter = 0 ∧ dot major minor = 0 ∧ dot inter minor = 0

/-- Position relative to the center. -/
def rel (cfg : Config) (p : Pt) : Vec ℝ := fun i => p.x i - cfg.center i

/-- Squared ellipsoidal radius with respect to axes `major, inter, minor` and ratios `q, s`. -/
noncomputable def ellipsoidal2 (major inter minor : Vec ℝ) (q s : ℝ) (y : Vec ℝ) : ℝ :=
  dot major y ^ 2 + dot inter y ^ 2 / q ^ 2 + dot minor y ^ 2 / s ^ 2

/-- The particle is inside the ellipsoid of semi-major axis `d` and, for shells of thickness `δ ≠ d`,
outside the ellipsoid with semi-axes `d-δ`, `qd-δ`, `sd-δ`. -/
def Inside (cfg : Config) (major inter minor : Vec ℝ) (q s : ℝ) (p : Pt) : Prop :=
  ellipsoidal2 major inter minor q s (rel cfg p) < cfg.d ^ 2 ∧
  ∀ δ, cfg.deltaD = some δ → cfg.d ≠ δ →
    1 ≤ dot major (rel cfg p) ^ 2 / (cfg.d - δ) ^ 2 + dot inter (rel cfg p) ^ 2 / (q * cfg.d - δ) ^ 2 +
      dot minor (rel cfg p) ^ 2 / (s * cfg.d - δ) ^ 2

/-- Shape tensor of a set of particles; `w` is the weight divisor of a particle (1, or its squared
ellipsoidal radius for the reduced tensor). -/
noncomputable def massTensor (cfg : Config) (w : Pt → ℝ) (ps : List Pt) (i j : Fin 3) : ℝ :=
  (ps.map fun p => p.m * (p.src i - cfg.srcCenter i) * (p.src j - cfg.srcCenter j) / w p).sum /
    (ps.map fun p => p.m).sum

/-- `v` is an eigenvector of `t` with eigenvalue `l`. -/
def IsEigenvector (t : Fin 3 → Fin 3 → ℝ) (l : ℝ) (v : Vec ℝ) : Prop :=
  ∀ i, t i 0 * v 0 + t i 1 * v 1 + t i 2 * v 2 = l * v i

/-- What is assumed of LAPACK for a real symmetric matrix: ascending eigenvalues, real, non-zero,
mutually orthogonal eigenvectors. -/
structure IsEigen (t : Tensor) (e : Eigen) : Prop where
  ordered : e.val 0 ≤ e.val 1 ∧ e.val 1 ≤ e.val 2
  eigen : ∀ k, IsEigenvector t (e.val k) (e.vec k)
  orth : ∀ k l, k ≠ l → dot (e.vec k) (e.vec l) = 0
  nonzero : ∀ k, e.vec k ≠ 0

/-- The solver is right for all symmetric matrices. -/
def GoodSolver (sol : Solver) : Prop := ∀ t : Tensor, (∀ i j, t i j = t j i) → IsEigen t (sol t)

open Classical in
/-- The shape `m` comes from one iteration which started from the ellipsoid with axes
`major', inter', minor'` and ratios `q', s'`: the particles inside that volume are at least `IT_MIN`,
`m` contains the principal axes and axis ratios of their shape tensor, and the ratios reproduce
`q', s'` up to the tolerance. -/
structure SelfConsistent (cfg : Config) (m : Morph) (major' inter' minor' : Vec ℝ) (q' s' : ℝ) : Prop where
  frame : Orthonormal major' inter' minor'
  ratios : 0 < s' ∧ 0 < q'
  radius : m.d = cfg.d
  enough : cfg.itMin ≤
    ((cfg.pts.filter fun p => decide (Inside cfg major' inter' minor' q' s' p)).length : Int)
  axes : Orthonormal m.major m.inter m.minor
  eigen : ∃ a b c : ℝ, 0 < c ∧ c ≤ b ∧ b ≤ a ∧ m.q = b / a ∧ m.s = c / a ∧
    ∀ t, t = massTensor cfg
        (fun p => if cfg.reduced then ellipsoidal2 major' inter' minor' q' s' (rel cfg p) else 1)
        (cfg.pts.filter fun p => decide (Inside cfg major' inter' minor' q' s' p)) →
      IsEigenvector t (a ^ 2) m.major ∧ IsEigenvector t (b ^ 2) m.inter ∧
        IsEigenvector t (c ^ 2) m.minor
  converged : |m.q - q'| ≤ cfg.tol * q' ∧ |m.s - s'| ≤ cfg.tol * s'

end Verif.Shapes
