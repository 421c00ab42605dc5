import Verif.Shapes.Stratified
import Mathlib.MeasureTheory.Function.Jacobian
import Mathlib.MeasureTheory.Measure.Lebesgue.VolumeOfBalls
import Mathlib.LinearAlgebra.Matrix.ToLin

/-!
# Second moments of continuous ellipsoidal bodies (C165)

The tensor which the sums of the code approximate for many particles is an integral.  For a body whose density is a function of the
ellipsoidal radius (a homogeneous ellipsoid, a homogeneous shell between similar ellipsoids, …) its eigenvalues are exactly
proportional to the squared semi-axes, so that the code's step from eigenvalues to axis ratios gives the axis ratios of the body.
-/

namespace Verif.Shapes

open MeasureTheory Matrix

/-! ## Specification -/

/-- Squared ellipsoidal radius (1 on the surface with semi-axes `s`). -/
noncomputable def level (s v : Fin 3 → ℝ) : ℝ := (v 0 / s 0) ^ 2 + (v 1 / s 1) ^ 2 + (v 2 / s 2) ^ 2

/-- Second moments of the body with semi-axes `s` along the coordinate axes and density `density` as a function of the squared
ellipsoidal radius. -/
noncomputable def bodyMoment (density : ℝ → ℝ) (s : Fin 3 → ℝ) (i j : Fin 3) : ℝ :=
  ∫ v : Fin 3 → ℝ, density (level s v) * (v i * v j)

/-- The density of a homogeneous body between the similar ellipsoids of ellipsoidal radii `r₁` and `r₂` (an ellipsoid for `r₁ = 0`). -/
noncomputable def homogeneous (r₁ r₂ : ℝ) (l : ℝ) : ℝ := if r₁ ^ 2 ≤ l ∧ l < r₂ ^ 2 then 1 else 0

/-! ## Proofs -/

theorem linear_change (M : Matrix (Fin 3) (Fin 3) ℝ) (hM : M.det ≠ 0) (f : (Fin 3 → ℝ) → ℝ) :
    ∫ v, f v = |M.det| * ∫ v, f (M *ᵥ v) := by
  set L : (Fin 3 → ℝ) →L[ℝ] (Fin 3 → ℝ) := LinearMap.toContinuousLinearMap (Matrix.toLin' M) with hL
  have hLv : ∀ v, L v = M *ᵥ v := fun v => rfl
  have hunit : IsUnit M.det := isUnit_iff_ne_zero.2 hM
  have hinj : Set.InjOn L Set.univ := by
    intro v _ w _ h
    have h1 : M *ᵥ v = M *ᵥ w := h
    have := congrArg (fun u => M⁻¹ *ᵥ u) h1
    simpa [Matrix.mulVec_mulVec, Matrix.nonsing_inv_mul M hunit] using this
  have hsurj : L '' Set.univ = Set.univ := by
    rw [Set.image_univ]
    apply Set.range_eq_univ.2
    intro w
    refine ⟨M⁻¹ *ᵥ w, ?_⟩
    rw [hLv, Matrix.mulVec_mulVec, Matrix.mul_nonsing_inv M hunit, Matrix.one_mulVec]
  have hdet : L.det = M.det := by
    show LinearMap.det (Matrix.toLin' M) = _
    exact LinearMap.det_toLin' M
  have key := integral_image_eq_integral_abs_det_fderiv_smul volume (f := L) (f' := fun _ => L) MeasurableSet.univ
    (fun v _ => L.hasFDerivWithinAt) hinj f
  rw [hsurj, setIntegral_univ, setIntegral_univ] at key
  rw [key]
  simp only [hdet, smul_eq_mul, hLv]
  exact integral_const_mul _ _

/-- Moments of a round body. -/
theorem round_moment (density : ℝ → ℝ) : ∃ κ, ∀ i j, bodyMoment density ![1, 1, 1] i j = if i = j then κ else 0 := by
  have hlev : ∀ v : Fin 3 → ℝ, level ![1, 1, 1] v = v 0 ^ 2 + v 1 ^ 2 + v 2 ^ 2 := by intro v; simp [level]
  have symm : ∀ i j, bodyMoment density ![1, 1, 1] i j = bodyMoment density ![1, 1, 1] j i := by
    intro i j
    unfold bodyMoment
    congr 1
    funext v
    ring
  have mv : ∀ (a b c d e f g h k : ℝ) (v : Fin 3 → ℝ), !![a, b, c; d, e, f; g, h, k] *ᵥ v =
      ![a * v 0 + b * v 1 + c * v 2, d * v 0 + e * v 1 + f * v 2, g * v 0 + h * v 1 + k * v 2] := by
    intro a b c d e f g h k v
    funext i
    fin_cases i <;> simp [Matrix.mulVec, dotProduct, Fin.sum_univ_three]
  -- reflections
  have r01 : bodyMoment density ![1, 1, 1] 0 1 = 0 := by
    have h := linear_change !![-1, 0, 0; 0, 1, 0; 0, 0, 1] (by simp [Matrix.det_fin_three])
      (fun v => density (level ![1, 1, 1] v) * (v 0 * v 1))
    have h' : bodyMoment density ![1, 1, 1] 0 1 = -bodyMoment density ![1, 1, 1] 0 1 := by
      unfold bodyMoment
      conv_lhs => rw [h]
      rw [← integral_neg]
      simp [Matrix.det_fin_three, mv, hlev]
    linarith
  have r02 : bodyMoment density ![1, 1, 1] 0 2 = 0 := by
    have h := linear_change !![-1, 0, 0; 0, 1, 0; 0, 0, 1] (by simp [Matrix.det_fin_three])
      (fun v => density (level ![1, 1, 1] v) * (v 0 * v 2))
    have h' : bodyMoment density ![1, 1, 1] 0 2 = -bodyMoment density ![1, 1, 1] 0 2 := by
      unfold bodyMoment
      conv_lhs => rw [h]
      rw [← integral_neg]
      simp [Matrix.det_fin_three, mv, hlev]
    linarith
  have r12 : bodyMoment density ![1, 1, 1] 1 2 = 0 := by
    have h := linear_change !![1, 0, 0; 0, -1, 0; 0, 0, 1] (by simp [Matrix.det_fin_three])
      (fun v => density (level ![1, 1, 1] v) * (v 1 * v 2))
    have h' : bodyMoment density ![1, 1, 1] 1 2 = -bodyMoment density ![1, 1, 1] 1 2 := by
      unfold bodyMoment
      conv_lhs => rw [h]
      rw [← integral_neg]
      simp [Matrix.det_fin_three, mv, hlev]
    linarith
  -- exchange of coordinates
  have e1 : bodyMoment density ![1, 1, 1] 1 1 = bodyMoment density ![1, 1, 1] 0 0 := by
    unfold bodyMoment
    conv_lhs => rw [linear_change !![0, 1, 0; 1, 0, 0; 0, 0, 1] (by simp [Matrix.det_fin_three])]
    simp [Matrix.det_fin_three, mv, hlev, add_comm]
  have e2 : bodyMoment density ![1, 1, 1] 2 2 = bodyMoment density ![1, 1, 1] 0 0 := by
    unfold bodyMoment
    conv_lhs => rw [linear_change !![0, 0, 1; 0, 1, 0; 1, 0, 0] (by simp [Matrix.det_fin_three])]
    have : ∀ v : Fin 3 → ℝ, v 2 ^ 2 + v 1 ^ 2 + v 0 ^ 2 = v 0 ^ 2 + v 1 ^ 2 + v 2 ^ 2 := fun v => by ring
    simp [Matrix.det_fin_three, mv, hlev, this]
  refine ⟨bodyMoment density ![1, 1, 1] 0 0, ?_⟩
  intro i j
  fin_cases i <;> fin_cases j <;> simp [r01, r02, r12, symm 1 0, symm 2 0, symm 2 1, e1, e2]

/-- C165. The second moments of a body whose density depends on the ellipsoidal radius only are proportional to the squared semi-axes,
and its principal axes are those of the ellipsoids. -/
theorem C165_body (density : ℝ → ℝ) : ∃ κ, ∀ a b c : ℝ, 0 < a → 0 < b → 0 < c → ∀ i j,
    bodyMoment density ![a, b, c] i j = if i = j then κ * (a * b * c) * ![a, b, c] i ^ 2 else 0 := by
  obtain ⟨κ, hκ⟩ := round_moment density
  refine ⟨κ, fun a b c ha hb hc i j => ?_⟩
  have h1 : bodyMoment density ![a, b, c] i j = a * b * c * (![a, b, c] i * ![a, b, c] j * bodyMoment density ![1, 1, 1] i j) := by
    have hdet : (Matrix.diagonal ![a, b, c]).det = a * b * c := by simp [Matrix.det_diagonal, Fin.prod_univ_three]
    have hmv : ∀ (v : Fin 3 → ℝ) k, (Matrix.diagonal ![a, b, c] *ᵥ v) k = ![a, b, c] k * v k := fun v k => Matrix.mulVec_diagonal _ _ _
    have hlev : ∀ v : Fin 3 → ℝ, level ![a, b, c] (Matrix.diagonal ![a, b, c] *ᵥ v) = level ![1, 1, 1] v := by
      intro v
      unfold level
      rw [hmv, hmv, hmv, mul_div_cancel_left₀ _ (by simpa using ha.ne'), mul_div_cancel_left₀ _ (by simpa using hb.ne'),
        mul_div_cancel_left₀ _ (by show c ≠ 0; exact hc.ne')]
      simp
    unfold bodyMoment
    rw [linear_change (Matrix.diagonal ![a, b, c]) (by rw [hdet]; positivity), hdet, abs_of_pos (by positivity)]
    congr 1
    rw [← integral_const_mul]
    congr 1
    funext v
    rw [hlev, hmv, hmv]
    ring
  rw [h1, hκ]
  split
  · rename_i hij
    subst hij
    ring
  · simp

/-- The constant of `C165_body` is positive for homogeneous bodies. -/
theorem homogeneous_pos (r₁ r₂ : ℝ) (h1 : 0 ≤ r₁) (h2 : r₁ < r₂) (i : Fin 3) :
    0 < bodyMoment (homogeneous r₁ r₂) ![1, 1, 1] i i := by
  have hlev : ∀ v : Fin 3 → ℝ, level ![1, 1, 1] v = v 0 ^ 2 + v 1 ^ 2 + v 2 ^ 2 := by intro v; simp [level]
  obtain ⟨κ, hκ⟩ := round_moment (homogeneous r₁ r₂)
  have hdiag : bodyMoment (homogeneous r₁ r₂) ![1, 1, 1] i i = bodyMoment (homogeneous r₁ r₂) ![1, 1, 1] 0 0 := by
    rw [hκ, hκ, if_pos rfl, if_pos rfl]
  rw [hdiag]
  unfold bodyMoment
  have hcont : Continuous fun v : Fin 3 → ℝ => v 0 ^ 2 + v 1 ^ 2 + v 2 ^ 2 := by fun_prop
  set S : Set (Fin 3 → ℝ) := {v | r₁ ^ 2 ≤ v 0 ^ 2 + v 1 ^ 2 + v 2 ^ 2 ∧ v 0 ^ 2 + v 1 ^ 2 + v 2 ^ 2 < r₂ ^ 2} with hS
  have hSm : MeasurableSet S :=
    (isClosed_le continuous_const hcont).measurableSet.inter (isOpen_lt hcont continuous_const).measurableSet
  have hf : (fun v : Fin 3 → ℝ => homogeneous r₁ r₂ (level ![1, 1, 1] v) * (v 0 * v 0)) =
      S.indicator fun v => v 0 * v 0 := by
    funext v
    rw [hlev]
    unfold homogeneous Set.indicator
    by_cases hv : r₁ ^ 2 ≤ v 0 ^ 2 + v 1 ^ 2 + v 2 ^ 2 ∧ v 0 ^ 2 + v 1 ^ 2 + v 2 ^ 2 < r₂ ^ 2
    · rw [if_pos hv, if_pos (show v ∈ S from hv), one_mul]
    · rw [if_neg hv, if_neg (show v ∉ S from hv), zero_mul]
  rw [hf]
  have hr2 : 0 < r₂ := h1.trans_lt h2
  have hsub : S ⊆ Metric.closedBall (0 : Fin 3 → ℝ) r₂ := by
    intro v hv
    rw [mem_closedBall_zero_iff, pi_norm_le_iff_of_nonneg hr2.le]
    intro k
    rw [Real.norm_eq_abs]
    have hlt := hv.2
    apply abs_le_of_sq_le_sq _ hr2.le
    fin_cases k
    · show v 0 ^ 2 ≤ _; nlinarith [sq_nonneg (v 1), sq_nonneg (v 2)]
    · show v 1 ^ 2 ≤ _; nlinarith [sq_nonneg (v 0), sq_nonneg (v 2)]
    · show v 2 ^ 2 ≤ _; nlinarith [sq_nonneg (v 0), sq_nonneg (v 1)]
  have hint : Integrable (S.indicator fun v : Fin 3 → ℝ => v 0 * v 0) := by
    rw [integrable_indicator_iff hSm]
    refine IntegrableOn.mono_set ?_ hsub
    exact (ContinuousOn.integrableOn_compact (isCompact_closedBall _ _) (by fun_prop))
  have hnn : 0 ≤ S.indicator fun v : Fin 3 → ℝ => v 0 * v 0 := by
    intro v
    exact Set.indicator_nonneg (fun v _ => mul_self_nonneg _) v
  rw [integral_pos_iff_support_of_nonneg hnn hint]
  set O : Set (Fin 3 → ℝ) := {v | r₁ ^ 2 < v 0 ^ 2 + v 1 ^ 2 + v 2 ^ 2 ∧ v 0 ^ 2 + v 1 ^ 2 + v 2 ^ 2 < r₂ ^ 2 ∧ 0 < v 0} with hO
  have hOo : IsOpen O :=
    (isOpen_lt continuous_const hcont).inter ((isOpen_lt hcont continuous_const).inter
      (isOpen_lt continuous_const (continuous_apply 0)))
  have hOne : O.Nonempty := by
    refine ⟨![(r₁ + r₂) / 2, 0, 0], ?_⟩
    show r₁ ^ 2 < ((r₁ + r₂) / 2) ^ 2 + 0 ^ 2 + 0 ^ 2 ∧ ((r₁ + r₂) / 2) ^ 2 + 0 ^ 2 + 0 ^ 2 < r₂ ^ 2 ∧ 0 < (r₁ + r₂) / 2
    refine ⟨?_, ?_, by linarith⟩ <;> nlinarith
  refine (hOo.measure_pos volume hOne).trans_le (measure_mono ?_)
  intro v hv
  rw [Function.mem_support, Set.indicator_of_mem (show v ∈ S from ⟨hv.1.le, hv.2.1⟩)]
  exact (mul_pos hv.2.2 hv.2.2).ne'

/-- C165. The step of the code from the tensor to axis ratios, applied to the tensor of a body whose density depends on the
ellipsoidal radius only (normalised by any positive mass), gives the axis ratios of the body. -/
theorem C165_ratios (cfg : Config) (hsol : GoodSolver cfg.solver) (density : ℝ → ℝ) (a b c mass : ℝ) (hc : 0 < c) (hcb : c ≤ b)
    (hba : b ≤ a) (hm : 0 < mass) (hpos : 0 < bodyMoment density ![a, b, c] 0 0) (q s : ℝ) (hq : 0 < q) (hs : 0 < s) :
    ∃ err major inter minor, diagonalise cfg (fun i j => bodyMoment density ![a, b, c] i j / mass) q s =
      some (b / a, c / a, err, major, inter, minor) := by
  have hb : 0 < b := hc.trans_le hcb
  have ha : 0 < a := hb.trans_le hba
  obtain ⟨κ, hκ⟩ := C165_body density
  have hκ := hκ a b c ha hb hc
  have hk : 0 < κ := by
    rw [hκ 0 0, if_pos rfl] at hpos
    have h1 : 0 < a * b * c * a ^ 2 := by positivity
    have h2 : 0 < κ * (a * b * c * a ^ 2) := by
      have : ![a, b, c] 0 = a := rfl
      rw [this, mul_assoc] at hpos
      exact hpos
    exact (pos_iff_pos_of_mul_pos h2).2 h1
  set k := κ * (a * b * c) / mass with hkdef
  have hkpos : 0 < k := by positivity
  set t : Tensor := fun i j => bodyMoment density ![a, b, c] i j / mass with ht
  have ht' : ∀ i j, t i j = if i = j then k * ![a, b, c] i ^ 2 else 0 := by
    intro i j
    rw [ht]
    show bodyMoment density ![a, b, c] i j / mass = _
    rw [hκ i j]
    split
    · rw [hkdef]; ring
    · simp
  have hsym : ∀ i j, t i j = t j i := by
    intro i j
    rw [ht', ht']
    by_cases hij : i = j
    · rw [hij]
    · rw [if_neg hij, if_neg (Ne.symm hij)]
  have hE := hsol t hsym
  have sk : √k ^ 2 = k := Real.sq_sqrt hkpos.le
  have skp : 0 < √k := Real.sqrt_pos.2 hkpos
  have hP : Principal t (a * √k) (b * √k) (c * √k) ![1, 0, 0] ![0, 1, 0] ![0, 0, 1] := by
    refine ⟨mul_pos hc skp, mul_le_mul_of_nonneg_right hcb skp.le, mul_le_mul_of_nonneg_right hba skp.le, unit_axes, ?_, ?_, ?_⟩
    · intro i; rw [mul_pow, sk, ht', ht', ht']; fin_cases i <;> simp; ring
    · intro i; rw [mul_pow, sk, ht', ht', ht']; fin_cases i <;> simp; ring
    · intro i; rw [mul_pow, sk, ht', ht', ht']; fin_cases i <;> simp; ring
  have hpsd : ∀ v : Vec ℝ, 0 ≤ v 0 * (t 0 0 * v 0 + t 0 1 * v 1 + t 0 2 * v 2) + v 1 * (t 1 0 * v 0 + t 1 1 * v 1 + t 1 2 * v 2) +
      v 2 * (t 2 0 * v 0 + t 2 1 * v 1 + t 2 2 * v 2) := by
    intro v
    simp only [ht']
    simp
    have e1 : 0 ≤ k * a ^ 2 * (v 0 * v 0) := by have := mul_self_nonneg (v 0); positivity
    have e2 : 0 ≤ k * b ^ 2 * (v 1 * v 1) := by have := mul_self_nonneg (v 1); positivity
    have e3 : 0 ≤ k * c ^ 2 * (v 2 * v 2) := by have := mul_self_nonneg (v 2); positivity
    nlinarith
  have hval : ∀ n, (cfg.solver t).val n ≠ 0 := by
    intro n h0
    have hn := hE.eigen n
    apply hE.nonzero n
    have f0 := hn 0
    have f1 := hn 1
    have f2 := hn 2
    rw [h0] at f0 f1 f2
    simp only [ht'] at f0 f1 f2
    simp [hkpos.ne', ha.ne', hb.ne', hc.ne'] at f0 f1 f2
    funext i
    fin_cases i
    · exact f0
    · exact f1
    · exact f2
  have hdg : ∃ err maj int min, diagonalise cfg t q s =
      some (√((cfg.solver t).val 1 / (cfg.solver t).val 2), √((cfg.solver t).val 0 / (cfg.solver t).val 2), err, maj, int, min) := by
    unfold diagonalise
    simp only [cdiv_of_ne (hval 2), cdiv_of_ne hq.ne', cdiv_of_ne hs.ne', normalise_axis _ (hE.nonzero 2),
      normalise_axis _ (hE.nonzero 1), normalise_axis _ (hE.nonzero 0), Option.bind_eq_bind, Option.bind_some]
    exact ⟨_, _, _, _, rfl⟩
  obtain ⟨err, maj, int, min, hdg⟩ := hdg
  refine ⟨err, maj, int, min, ?_⟩
  obtain ⟨ho, ⟨a', b', c', ha', hcb', hba', hc', eq, es, g1, g2, g3⟩, -⟩ := diagonalise_some hq hs hE hpsd hdg
  have hcpos : 0 < c' := by
    rcases hc'.lt_or_eq with h | h
    · exact h
    · exfalso
      have f0 := g3 0
      have f1 := g3 1
      have f2 := g3 2
      rw [← h] at f0 f1 f2
      simp only [ht'] at f0 f1 f2
      simp [hkpos.ne', ha.ne', hb.ne', hc.ne'] at f0 f1 f2
      have hn := ho.2.2.1
      unfold dot at hn
      rw [f0, f1, f2] at hn
      norm_num at hn
  obtain ⟨rfl, rfl, rfl⟩ := hP.unique hsym ⟨hcpos, hcb', hba', ho, g1, g2, g3⟩
  rw [hdg, eq, es, mul_div_mul_right _ _ skp.ne', mul_div_mul_right _ _ skp.ne']

/-- Homogeneous ellipsoids, and homogeneous shells between similar ellipsoids, are such bodies. -/
example (a b c r₁ r₂ : ℝ) (hc : 0 < c) (hcb : c ≤ b) (hba : b ≤ a) (h1 : 0 ≤ r₁) (h2 : r₁ < r₂) :
    0 < bodyMoment (homogeneous r₁ r₂) ![a, b, c] 0 0 := by
  have hb : 0 < b := hc.trans_le hcb
  have ha : 0 < a := hb.trans_le hba
  obtain ⟨κ, hκ⟩ := C165_body (homogeneous r₁ r₂)
  have hp := homogeneous_pos r₁ r₂ h1 h2 0
  rw [hκ 1 1 1 one_pos one_pos one_pos, if_pos rfl] at hp
  rw [hκ a b c ha hb hc, if_pos rfl]
  have hk : 0 < κ := by simpa using hp
  have : ![a, b, c] 0 = a := rfl
  rw [this]
  positivity

end Verif.Shapes
