import Verif.Mock.Planar
import Mathlib.MeasureTheory.Constructions.HaarToSphere
import Mathlib.MeasureTheory.Measure.Lebesgue.VolumeOfBalls
import Mathlib.MeasureTheory.Function.JacobianOneDim
import Mathlib.Probability.Distributions.Gaussian.Real

/-!
# Points drawn from ellipsoids are uniform (C173)

`drawUniformFromEllipsoid`, cosmic_profiles/common/python_routines.py:341-390, as a random experiment: three (or two) independent normal
numbers and a uniform one for each point.  The function is modelled in Mock/Planar.lean (`drawEllipsoid`); here is the distribution of the
points which follows from that of the numbers of numpy's generator.  Simplified: the numbers are exactly normal and uniform, and
independent; rounding is not modelled here.
-/

namespace Verif.Mock

open MeasureTheory Metric Set ENNReal ProbabilityTheory

/-! ## Specification -/

/-- Random numbers for one point in three dimensions: three independent normal numbers (mean 0, variance 1), and one which is uniform
between 0 and 1, independent of them. -/
noncomputable def randomSpace : Measure ((ℝ × ℝ × ℝ) × ℝ) :=
  ((gaussianReal 0 1).prod ((gaussianReal 0 1).prod (gaussianReal 0 1))).prod (volume.restrict (Ico 0 1))

/-- Random numbers for one point in two dimensions. -/
noncomputable def randomPlane : Measure ((ℝ × ℝ) × ℝ) :=
  ((gaussianReal 0 1).prod (gaussianReal 0 1)).prod (volume.restrict (Ico 0 1))

/-- The ellipsoid with the given semi-axes. -/
def Ellipsoid (a b c : ℝ) : Set (ℝ × ℝ × ℝ) := {x | (x.1 / a) ^ 2 + (x.2.1 / b) ^ 2 + (x.2.2 / c) ^ 2 ≤ 1}

/-- The ellipse with the given semi-axes. -/
def Ellipse (a b : ℝ) : Set (ℝ × ℝ) := {x | (x.1 / a) ^ 2 + (x.2 / b) ^ 2 ≤ 1}

/-! ## Uniform points in a ball -/

section Ball

variable {E : Type} [NormedAddCommGroup E] [NormedSpace ℝ E] [MeasurableSpace E] [BorelSpace E] [FiniteDimensional ℝ E]
  [Nontrivial E] (μ : Measure E) [μ.IsAddHaarMeasure]

/-- Integration in polar coordinates. -/
theorem polar (F : E → ℝ≥0∞) (hF : Measurable F) :
    ∫⁻ x, F x ∂μ = ∫⁻ s : sphere (0 : E) 1, ∫⁻ r in Ioi (0 : ℝ),
      ENNReal.ofReal (r ^ (Module.finrank ℝ E - 1)) * F (r • (s : E)) ∂volume ∂μ.toSphere := by
  have hm : MeasurableSet ({0}ᶜ : Set E) := (measurableSet_singleton _).compl
  have h1 : ∫⁻ x, F x ∂μ = ∫⁻ x in ({0}ᶜ : Set E), F x ∂μ := by
    rw [Measure.restrict_congr_set (show ({0}ᶜ : Set E) =ᵐ[μ] univ from compl_mem_ae_iff.2 (measure_singleton 0) |> fun h => Filter.eventuallyEq_univ.2 h),
      Measure.restrict_univ]
  have mp := μ.measurePreserving_homeomorphUnitSphereProd
  have hG : Measurable fun p : sphere (0 : E) 1 × Ioi (0 : ℝ) => F (p.2.1 • p.1.1) :=
    hF.comp ((measurable_subtype_coe.comp measurable_snd).smul (measurable_subtype_coe.comp measurable_fst))
  rw [h1, ← lintegral_subtype_comap hm]
  have h2 := mp.lintegral_comp hG
  have h3 : ∀ x : ({0}ᶜ : Set E), F ((homeomorphUnitSphereProd E x).2.1 • (homeomorphUnitSphereProd E x).1.1) = F x := by
    intro x
    congr 1
    rw [homeomorphUnitSphereProd_apply_snd_coe, homeomorphUnitSphereProd_apply_fst_coe, smul_smul, mul_inv_cancel₀, one_smul]
    exact norm_ne_zero_iff.2 x.2
  simp only [h3] at h2
  rw [h2, lintegral_prod _ hG.aemeasurable]
  refine lintegral_congr fun s => ?_
  have hs : Measurable fun r : ℝ => F (r • (s : E)) := hF.comp (measurable_id.smul_const _)
  have h4 := lintegral_withDensity_eq_lintegral_mul (Measure.comap Subtype.val volume)
    (f := fun r : Ioi (0 : ℝ) => ENNReal.ofReal (r.1 ^ (Module.finrank ℝ E - 1))) (by fun_prop) (hs.comp measurable_subtype_coe)
  refine h4.trans ?_
  exact lintegral_subtype_comap measurableSet_Ioi
    fun r => ENNReal.ofReal (r ^ (Module.finrank ℝ E - 1)) * F (r • (s : E))

/-- The `n`-th root of a uniform number has the density `n r ^ (n - 1)`. -/
theorem root_law (n : ℕ) (hn : n ≠ 0) (G : ℝ → ℝ≥0∞) :
    ∫⁻ w in Ioo (0 : ℝ) 1, G (w ^ ((1 : ℝ) / n)) = n * ∫⁻ r in Ioo (0 : ℝ) 1, ENNReal.ofReal (r ^ (n - 1)) * G r := by
  have hinj : InjOn (fun r : ℝ => r ^ n) (Ioo 0 1) := fun x hx y hy h => (pow_left_inj₀ hx.1.le hy.1.le hn).1 h
  have hd : ∀ x ∈ Ioo (0 : ℝ) 1, HasDerivWithinAt (fun r : ℝ => r ^ n) (n * x ^ (n - 1)) (Ioo 0 1) x :=
    fun x _ => (hasDerivAt_pow n x).hasDerivWithinAt
  have him : (fun r : ℝ => r ^ n) '' Ioo 0 1 = Ioo 0 1 := by
    ext w
    constructor
    · rintro ⟨r, hr, rfl⟩
      exact ⟨pow_pos hr.1 n, pow_lt_one₀ hr.1.le hr.2 hn⟩
    · intro hw
      refine ⟨w ^ ((1 : ℝ) / n), ⟨Real.rpow_pos_of_pos hw.1 _, Real.rpow_lt_one hw.1.le hw.2 (by positivity)⟩, ?_⟩
      simp only [one_div]
      exact Real.rpow_inv_natCast_pow hw.1.le hn
  have key := lintegral_image_eq_lintegral_abs_deriv_mul measurableSet_Ioo hd hinj fun w => G (w ^ ((1 : ℝ) / n))
  rw [him] at key
  rw [key, ← lintegral_const_mul' _ _ (natCast_ne_top n)]
  refine setLIntegral_congr_fun measurableSet_Ioo fun r hr => ?_
  have h0 : 0 ≤ r ^ (n - 1) := pow_nonneg hr.1.le _
  rw [abs_of_nonneg (by positivity), ENNReal.ofReal_mul (by positivity), ENNReal.ofReal_natCast, mul_assoc]
  simp only [one_div]
  rw [Real.pow_rpow_inv_natCast hr.1.le hn]

/-- If the density of the directions' vectors depends on their length only, and the distance is the root of a uniform number, the points are
uniform in the unit ball. -/
theorem uniform_ball (f : ℝ → ℝ≥0∞) (hf : Measurable f) (hone : ∫⁻ x, f ‖x‖ ∂μ = 1) (A : Set E) (hA : MeasurableSet A) :
    ∫⁻ x, f ‖x‖ * volume {w : ℝ | w ∈ Ioo (0 : ℝ) 1 ∧ (w ^ ((1 : ℝ) / Module.finrank ℝ E)) • (‖x‖⁻¹ • x) ∈ A} ∂μ =
      μ (A ∩ ball 0 1) / μ (ball 0 1) := by
  set n := Module.finrank ℝ E with hn
  have hn0 : n ≠ 0 := Module.finrank_pos.ne'
  -- the chance given the direction
  set H : E → ℝ≥0∞ := fun u => volume {w : ℝ | w ∈ Ioo (0 : ℝ) 1 ∧ (w ^ ((1 : ℝ) / n)) • u ∈ A} with hH
  have hHm : Measurable H := by
    have : MeasurableSet {p : E × ℝ | p.2 ∈ Ioo (0 : ℝ) 1 ∧ (p.2 ^ ((1 : ℝ) / n)) • p.1 ∈ A} := by
      refine (measurable_snd measurableSet_Ioo).inter ?_
      exact ((measurable_snd.pow_const _).smul measurable_fst) hA
    exact measurable_measure_prodMk_left this
  have hnorm : Measurable fun x : E => ‖x‖⁻¹ • x := (measurable_norm.inv).smul measurable_id
  have hS : ∀ (s : sphere (0 : E) 1) (r : ℝ), 0 < r → ‖r • (s : E)‖ = r := by
    intro s r hr
    rw [norm_smul, norm_eq_of_mem_sphere s, mul_one, Real.norm_of_nonneg hr.le]
  have hU : ∀ (s : sphere (0 : E) 1) (r : ℝ), 0 < r → ‖r • (s : E)‖⁻¹ • r • (s : E) = s := by
    intro s r hr
    rw [hS s r hr, smul_smul, inv_mul_cancel₀ hr.ne', one_smul]
  set K := ∫⁻ r in Ioi (0 : ℝ), ENNReal.ofReal (r ^ (n - 1)) * f r with hK
  have hpm : Measurable fun r : ℝ => ENNReal.ofReal (r ^ (n - 1)) * f r := by fun_prop
  have h1 : ∫⁻ x, f ‖x‖ * H (‖x‖⁻¹ • x) ∂μ = K * ∫⁻ s : sphere (0 : E) 1, H s ∂μ.toSphere := by
    rw [polar μ (fun x => f ‖x‖ * H (‖x‖⁻¹ • x)) ((hf.comp measurable_norm).mul (hHm.comp hnorm)), 
      ← lintegral_const_mul (μ := μ.toSphere) K (show Measurable fun s : sphere (0 : E) 1 => H s from hHm.comp measurable_subtype_coe)]
    refine lintegral_congr fun s => ?_
    rw [hK, ← lintegral_mul_const _ hpm]
    refine setLIntegral_congr_fun measurableSet_Ioi fun r hr => ?_
    simp only [hU s r hr]
    rw [hS s r hr, mul_assoc]
  have h2 : 1 = K * μ.toSphere univ := by
    rw [← hone, polar μ (fun x => f ‖x‖) (hf.comp measurable_norm), ← lintegral_const]
    refine lintegral_congr fun s => ?_
    rw [hK]
    refine setLIntegral_congr_fun measurableSet_Ioi fun r hr => ?_
    simp only [hS s r hr]
    rfl
  have h3 : (n : ℝ≥0∞) * μ (A ∩ ball 0 1) = ∫⁻ s : sphere (0 : E) 1, H s ∂μ.toSphere := by
    have hAB : MeasurableSet (A ∩ ball (0 : E) 1) := hA.inter measurableSet_ball
    rw [← lintegral_indicator_one hAB, polar μ _ (measurable_one.indicator hAB), ← lintegral_const_mul']
    · refine lintegral_congr fun s => ?_
      have hsm : MeasurableSet {r : ℝ | r • (s : E) ∈ A} := (measurable_id.smul_const (s : E)) hA
      have e1 : H s = ∫⁻ w in Ioo (0 : ℝ) 1, ({r : ℝ | r • (s : E) ∈ A}.indicator 1) (w ^ ((1 : ℝ) / n)) := by
        have : MeasurableSet {w : ℝ | (w ^ ((1 : ℝ) / n)) • (s : E) ∈ A} :=
          ((measurable_id.pow_const ((1 : ℝ) / n)).smul_const (s : E)) hA
        have h := lintegral_indicator_one (μ := volume.restrict (Ioo (0 : ℝ) 1)) this
        rw [Measure.restrict_apply this, inter_comm] at h
        rw [hH]
        exact h.symm
      rw [e1, root_law n hn0, ← lintegral_indicator measurableSet_Ioo, ← lintegral_indicator measurableSet_Ioi]
      congr 1
      refine lintegral_congr fun r => ?_
      by_cases h0 : 0 < r
      · by_cases h4 : r < 1
        · rw [indicator_of_mem (show r ∈ Ioi 0 from h0), indicator_of_mem (show r ∈ Ioo 0 1 from ⟨h0, h4⟩)]
          congr 1
          have hb : r • (s : E) ∈ ball (0 : E) 1 := by rw [mem_ball_zero_iff, hS s r h0]; exact h4
          by_cases hr : r • (s : E) ∈ A
          · rw [indicator_of_mem (show r • (s : E) ∈ A ∩ ball 0 1 from ⟨hr, hb⟩), indicator_of_mem (by exact hr)]; rfl
          · rw [indicator_of_notMem (fun h => hr h.1), indicator_of_notMem (by exact hr)]
        · rw [indicator_of_mem (show r ∈ Ioi 0 from h0), indicator_of_notMem (fun h : r ∈ Ioo 0 1 => h4 h.2),
            indicator_of_notMem, mul_zero]
          intro h
          have := h.2
          rw [mem_ball_zero_iff, hS s r h0] at this
          exact h4 this
      · rw [indicator_of_notMem (fun h : r ∈ Ioi 0 => h0 h), indicator_of_notMem (fun h : r ∈ Ioo 0 1 => h0 h.1)]
    · exact natCast_ne_top n
  have hσ : μ.toSphere univ = n * μ (ball 0 1) := Measure.toSphere_apply_univ μ
  have hb0 : μ (ball (0 : E) 1) ≠ 0 := (measure_ball_pos μ _ one_pos).ne'
  have hbt : μ (ball (0 : E) 1) ≠ ⊤ := measure_ball_lt_top.ne
  change ∫⁻ x, f ‖x‖ * H (‖x‖⁻¹ • x) ∂μ = _
  rw [h1, ← h3, ENNReal.eq_div_iff hb0 hbt]
  rw [hσ] at h2
  calc μ (ball 0 1) * (K * (n * μ (A ∩ ball 0 1))) = (K * (n * μ (ball 0 1))) * μ (A ∩ ball 0 1) := by ring
    _ = μ (A ∩ ball 0 1) := by rw [← h2, one_mul]

/-- The same for points stretched to an ellipsoid `Ell`, with vectors given by their coordinates. -/
theorem uniform_stretched {X : Type} [MeasurableSpace X] (ν γ : Measure X) [SFinite γ] (e : X → E) (he : MeasurePreserving e ν μ)
    (f : ℝ → ℝ≥0∞) (hf : Measurable f) (hγ : γ = ν.withDensity fun x => f ‖e x‖) (hγ1 : γ univ = 1) (D : E → X) (hD : Measurable D)
    (pt : X → ℝ → X) (hpt : Measurable fun p : X × ℝ => pt p.1 p.2)
    (heq : ∀ x w, w ∈ Ioo (0 : ℝ) 1 → pt x w = D ((w ^ ((1 : ℝ) / Module.finrank ℝ E)) • (‖e x‖⁻¹ • e x)))
    (Ell : Set X) (hEll : MeasurableSet Ell) (hin : ∀ x, ‖e x‖ ≤ 1 ↔ D (e x) ∈ Ell) (k : ℝ≥0∞) (hk0 : k ≠ 0) (hkt : k ≠ ⊤)
    (hk : ∀ B, MeasurableSet B → ν ((fun x => D (e x)) ⁻¹' B) = k * ν B) (A : Set X) (hA : MeasurableSet A) :
    k * ν Ell = μ (closedBall 0 1) ∧
    (γ.prod (volume.restrict (Ico (0 : ℝ) 1))) {p | pt p.1 p.2 ∈ A} = ν (A ∩ Ell) / ν Ell := by
  have hfe : Measurable fun x => f ‖e x‖ := hf.comp (measurable_norm.comp he.measurable)
  have hball : ∀ B, MeasurableSet B → μ (D ⁻¹' B ∩ ball 0 1) = k * ν (B ∩ Ell) := by
    intro B hB
    have h1 : (D ⁻¹' B ∩ ball 0 1 : Set E) =ᵐ[μ] (D ⁻¹' B ∩ closedBall 0 1 : Set E) :=
      (ae_eq_refl _).inter (ae_eq_of_subset_of_measure_ge ball_subset_closedBall
        (by rw [Measure.addHaar_closedBall_eq_addHaar_ball]) measurableSet_ball.nullMeasurableSet measure_closedBall_lt_top.ne)
    rw [measure_congr h1, ← he.measure_preimage ((hD hB).inter measurableSet_closedBall).nullMeasurableSet,
      ← hk _ (hB.inter hEll)]
    congr 1
    ext x
    simp only [mem_preimage, mem_inter_iff, mem_closedBall_zero_iff, hin]
  have hball1 : μ (ball (0 : E) 1) = k * ν Ell := by
    have := hball univ MeasurableSet.univ
    rwa [preimage_univ, univ_inter, univ_inter] at this
  refine ⟨by rw [Measure.addHaar_closedBall_eq_addHaar_ball, hball1], ?_⟩
  have hone : ∫⁻ x, f ‖x‖ ∂μ = 1 := by
    rw [← he.lintegral_comp (f := fun x => f ‖x‖) (hf.comp measurable_norm), ← hγ1, hγ, withDensity_apply _ MeasurableSet.univ, Measure.restrict_univ]
  have key := uniform_ball μ f hf hone (D ⁻¹' A) (hD hA)
  rw [hball A hA, hball1, ENNReal.mul_div_mul_left _ _ hk0 hkt] at key
  have hset : MeasurableSet {p : X × ℝ | pt p.1 p.2 ∈ A} := hpt hA
  rw [← key, Measure.prod_apply hset]
  have hUm : Measurable fun x : E => volume {w : ℝ | w ∈ Ioo (0 : ℝ) 1 ∧
      (w ^ ((1 : ℝ) / Module.finrank ℝ E)) • (‖x‖⁻¹ • x) ∈ D ⁻¹' A} := by
    have : MeasurableSet {p : E × ℝ | p.2 ∈ Ioo (0 : ℝ) 1 ∧ (p.2 ^ ((1 : ℝ) / Module.finrank ℝ E)) • (‖p.1‖⁻¹ • p.1) ∈ D ⁻¹' A} := by
      refine (measurable_snd measurableSet_Ioo).inter ?_
      exact ((measurable_snd.pow_const _).smul ((measurable_norm.comp measurable_fst).inv.smul measurable_fst)) (hD hA)
    exact measurable_measure_prodMk_left this
  rw [← he.lintegral_comp (f := fun x => f ‖x‖ * volume {w : ℝ | w ∈ Ioo (0 : ℝ) 1 ∧
      (w ^ ((1 : ℝ) / Module.finrank ℝ E)) • (‖x‖⁻¹ • x) ∈ D ⁻¹' A}) ((hf.comp measurable_norm).mul hUm), hγ,
    lintegral_withDensity_eq_lintegral_mul _ hfe (measurable_measure_prodMk_left hset)]
  refine lintegral_congr fun x => ?_
  simp only [Pi.mul_apply]
  congr 1
  rw [Measure.restrict_congr_set Ioo_ae_eq_Ico.symm, Measure.restrict_apply' measurableSet_Ioo]
  congr 1
  ext w
  simp only [mem_inter_iff, mem_preimage, Set.mem_ofPred_eq]
  constructor
  · intro h
    exact ⟨h.2, by rw [← heq x w h.2]; exact h.1⟩
  · intro h
    exact ⟨by rw [heq x w h.1]; exact h.2, h.1⟩

end Ball

/-! ## Coordinates -/

/-- The vector with the given coordinates. -/
noncomputable def vector3 (x : ℝ × ℝ × ℝ) : EuclideanSpace ℝ (Fin 3) := WithLp.toLp 2 ![x.1, x.2.1, x.2.2]

/-- The vector with the given coordinates. -/
noncomputable def vector2 (x : ℝ × ℝ) : EuclideanSpace ℝ (Fin 2) := WithLp.toLp 2 ![x.1, x.2]

theorem vector2_preserving : MeasurePreserving vector2 volume volume := by
  have h := (PiLp.volume_preserving_toLp (Fin 2)).comp (volume_preserving_finTwoArrow ℝ).symm
  exact h

theorem vector3_preserving : MeasurePreserving vector3 volume volume := by
  have h1 := (volume_preserving_piFinSuccAbove (fun _ : Fin 3 => ℝ) 0).symm
  have h2 : MeasurePreserving (Prod.map (id : ℝ → ℝ) (MeasurableEquiv.finTwoArrow (α := ℝ)).symm) volume volume :=
    (MeasurePreserving.id (volume : Measure ℝ)).prod (volume_preserving_finTwoArrow ℝ).symm
  have h := (PiLp.volume_preserving_toLp (Fin 3)).comp (h1.comp h2)
  convert! h using 1
  funext x
  unfold vector3
  simp only [Function.comp_apply]
  congr 1
  funext i
  fin_cases i <;> rfl

theorem vector3_norm (x : ℝ × ℝ × ℝ) : ‖vector3 x‖ = √(x.1 ^ 2 + x.2.1 ^ 2 + x.2.2 ^ 2) := by
  rw [EuclideanSpace.norm_eq]
  simp [vector3, Fin.sum_univ_three]

theorem vector2_norm (x : ℝ × ℝ) : ‖vector2 x‖ = √(x.1 ^ 2 + x.2 ^ 2) := by
  rw [EuclideanSpace.norm_eq]
  simp [vector2]

/-- The density of `n` independent normal numbers as a function of the length of the vector. -/
noncomputable def radialDensity (n : ℕ) (r : ℝ) : ℝ≥0∞ := ENNReal.ofReal ((√(2 * Real.pi))⁻¹ ^ n * Real.exp (-r ^ 2 / 2))

theorem radialDensity_measurable (n : ℕ) : Measurable (radialDensity n) := by
  unfold radialDensity
  fun_prop

theorem normal3 : (gaussianReal 0 1).prod ((gaussianReal 0 1).prod (gaussianReal 0 1)) =
    (volume : Measure (ℝ × ℝ × ℝ)).withDensity fun x => radialDensity 3 ‖vector3 x‖ := by
  rw [gaussianReal_of_var_ne_zero 0 one_ne_zero, prod_withDensity (measurable_gaussianPDF 0 1) (measurable_gaussianPDF 0 1),
    prod_withDensity (measurable_gaussianPDF 0 1) (by fun_prop)]
  congr 1
  funext x
  have hs : √(x.1 ^ 2 + x.2.1 ^ 2 + x.2.2 ^ 2) ^ 2 = x.1 ^ 2 + x.2.1 ^ 2 + x.2.2 ^ 2 := Real.sq_sqrt (by positivity)
  unfold radialDensity
  rw [vector3_norm, hs]
  simp only [gaussianPDF, gaussianPDFReal]
  rw [← ENNReal.ofReal_mul (by positivity), ← ENNReal.ofReal_mul (by positivity)]
  congr 1
  have : -(x.1 ^ 2 + x.2.1 ^ 2 + x.2.2 ^ 2) / 2 = -(x.1 ^ 2) / 2 + (-(x.2.1 ^ 2) / 2 + -(x.2.2 ^ 2) / 2) := by ring
  rw [this, Real.exp_add, Real.exp_add]
  simp only [NNReal.coe_one, mul_one, sub_zero]
  ring

theorem normal2 : (gaussianReal 0 1).prod (gaussianReal 0 1) =
    (volume : Measure (ℝ × ℝ)).withDensity fun x => radialDensity 2 ‖vector2 x‖ := by
  rw [gaussianReal_of_var_ne_zero 0 one_ne_zero, prod_withDensity (measurable_gaussianPDF 0 1) (measurable_gaussianPDF 0 1)]
  congr 1
  funext x
  have hs : √(x.1 ^ 2 + x.2 ^ 2) ^ 2 = x.1 ^ 2 + x.2 ^ 2 := Real.sq_sqrt (by positivity)
  unfold radialDensity
  rw [vector2_norm, hs]
  simp only [gaussianPDF, gaussianPDFReal]
  rw [← ENNReal.ofReal_mul (by positivity)]
  congr 1
  have : -(x.1 ^ 2 + x.2 ^ 2) / 2 = -(x.1 ^ 2) / 2 + -(x.2 ^ 2) / 2 := by ring
  rw [this, Real.exp_add]
  simp only [NNReal.coe_one, mul_one, sub_zero]
  ring

/-- Stretching three coordinates. -/
theorem stretch3 (a b c : ℝ) (ha : 0 < a) (hb : 0 < b) (hc : 0 < c) (B : Set (ℝ × ℝ × ℝ)) (hB : MeasurableSet B) :
    volume ((fun x : ℝ × ℝ × ℝ => (a * x.1, b * x.2.1, c * x.2.2)) ⁻¹' B) = ENNReal.ofReal (a * b * c)⁻¹ * volume B := by
  have h : Measure.map (Prod.map (a * ·) (Prod.map (b * ·) (c * ·))) (volume : Measure (ℝ × ℝ × ℝ)) =
      ENNReal.ofReal (a * b * c)⁻¹ • volume := by
    rw [Measure.volume_eq_prod, Measure.volume_eq_prod, ← Measure.map_prod_map _ _ (by fun_prop) (by fun_prop),
      ← Measure.map_prod_map _ _ (by fun_prop) (by fun_prop), Real.map_volume_mul_left ha.ne', Real.map_volume_mul_left hb.ne',
      Real.map_volume_mul_left hc.ne', Measure.prod_smul_left, Measure.prod_smul_left, Measure.prod_smul_right,
      Measure.prod_smul_right, smul_smul, Measure.prod_smul_right, smul_smul, abs_of_pos (inv_pos.2 ha), abs_of_pos (inv_pos.2 hb), abs_of_pos (inv_pos.2 hc),
      ← ENNReal.ofReal_mul (inv_pos.2 ha).le, ← ENNReal.ofReal_mul (by positivity), mul_inv, mul_inv]
  have h2 := congrArg (fun m : Measure (ℝ × ℝ × ℝ) => m B) h
  simp only [Measure.smul_apply, smul_eq_mul] at h2
  rw [Measure.map_apply (by fun_prop) hB] at h2
  exact h2

/-- Stretching two coordinates. -/
theorem stretch2 (a b : ℝ) (ha : 0 < a) (hb : 0 < b) (B : Set (ℝ × ℝ)) (hB : MeasurableSet B) :
    volume ((fun x : ℝ × ℝ => (a * x.1, b * x.2)) ⁻¹' B) = ENNReal.ofReal (a * b)⁻¹ * volume B := by
  have h : Measure.map (Prod.map (a * ·) (b * ·)) (volume : Measure (ℝ × ℝ)) = ENNReal.ofReal (a * b)⁻¹ • volume := by
    rw [Measure.volume_eq_prod, ← Measure.map_prod_map _ _ (by fun_prop) (by fun_prop), Real.map_volume_mul_left ha.ne',
      Real.map_volume_mul_left hb.ne', Measure.prod_smul_left, Measure.prod_smul_right, smul_smul, abs_of_pos (inv_pos.2 ha),
      abs_of_pos (inv_pos.2 hb), ← ENNReal.ofReal_mul (inv_pos.2 ha).le, mul_inv]
  have h2 := congrArg (fun m : Measure (ℝ × ℝ) => m B) h
  simp only [Measure.smul_apply, smul_eq_mul] at h2
  rw [Measure.map_apply (by fun_prop) hB] at h2
  exact h2

theorem ellipsoid_measurable (a b c : ℝ) : MeasurableSet (Ellipsoid a b c) := by
  unfold Ellipsoid
  exact measurableSet_le (by fun_prop) measurable_const

theorem ellipse_measurable (a b : ℝ) : MeasurableSet (Ellipse a b) := by
  unfold Ellipse
  exact measurableSet_le (by fun_prop) measurable_const

theorem ellipsoidPoint_measurable (a b c : ℝ) : Measurable fun p : (ℝ × ℝ × ℝ) × ℝ => ellipsoidPoint a b c p.1 p.2 := by
  unfold ellipsoidPoint
  fun_prop

theorem law3 (a b c : ℝ) (ha : 0 < a) (hb : 0 < b) (hc : 0 < c) (A : Set (ℝ × ℝ × ℝ)) (hA : MeasurableSet A) :
    ENNReal.ofReal (a * b * c)⁻¹ * volume (Ellipsoid a b c) = ENNReal.ofReal (Real.pi * 4 / 3) ∧
    randomSpace {p | ellipsoidPoint a b c p.1 p.2 ∈ A} = volume (A ∩ Ellipsoid a b c) / volume (Ellipsoid a b c) := by
  have habc : 0 < (a * b * c)⁻¹ := by positivity
  have h := uniform_stretched (volume : Measure (EuclideanSpace ℝ (Fin 3))) volume
    ((gaussianReal 0 1).prod ((gaussianReal 0 1).prod (gaussianReal 0 1))) vector3 vector3_preserving (radialDensity 3)
    (radialDensity_measurable 3) normal3 measure_univ (fun y => (a * y 0, b * y 1, c * y 2)) (by fun_prop) (ellipsoidPoint a b c)
    (ellipsoidPoint_measurable a b c) ?_ (Ellipsoid a b c) (ellipsoid_measurable a b c) ?_ (ENNReal.ofReal (a * b * c)⁻¹)
    (by simpa using habc) ENNReal.ofReal_ne_top (fun B hB => stretch3 a b c ha hb hc B hB) A hA
  · refine ⟨?_, h.2⟩
    rw [h.1, EuclideanSpace.volume_closedBall_fin_three]
    simp
  · intro x w _
    rw [vector3_norm]
    unfold ellipsoidPoint
    simp only [stretch a ha, stretch b hb, stretch c hc]
    simp [vector3]
    refine ⟨?_, ?_, ?_⟩ <;> ring_nf <;> tauto
  · intro x
    rw [vector3_norm, Real.sqrt_le_one]
    unfold Ellipsoid
    simp [vector3]
    field_simp


/-- One point in two dimensions. -/
noncomputable def ellipsePoint (a b : ℝ) (g : ℝ × ℝ) (w : ℝ) : ℝ × ℝ :=
  (a * (w ^ ((1 : ℝ) / 2) * g.1 / √(g.1 ^ 2 + g.2 ^ 2)), b * (w ^ ((1 : ℝ) / 2) * g.2 / √(g.1 ^ 2 + g.2 ^ 2)))

theorem ellipsePoint_measurable (a b : ℝ) : Measurable fun p : (ℝ × ℝ) × ℝ => ellipsePoint a b p.1 p.2 := by
  unfold ellipsePoint
  fun_prop

theorem law2 (a b : ℝ) (ha : 0 < a) (hb : 0 < b) (A : Set (ℝ × ℝ)) (hA : MeasurableSet A) :
    ENNReal.ofReal (a * b)⁻¹ * volume (Ellipse a b) = ENNReal.ofReal Real.pi ∧
    randomPlane {p | ellipsePoint a b p.1 p.2 ∈ A} = volume (A ∩ Ellipse a b) / volume (Ellipse a b) := by
  have hab : 0 < (a * b)⁻¹ := by positivity
  have h := uniform_stretched (volume : Measure (EuclideanSpace ℝ (Fin 2))) volume
    ((gaussianReal 0 1).prod (gaussianReal 0 1)) vector2 vector2_preserving (radialDensity 2)
    (radialDensity_measurable 2) normal2 measure_univ (fun y => (a * y 0, b * y 1)) (by fun_prop) (ellipsePoint a b)
    (ellipsePoint_measurable a b) ?_ (Ellipse a b) (ellipse_measurable a b) ?_ (ENNReal.ofReal (a * b)⁻¹)
    (by simpa using hab) ENNReal.ofReal_ne_top (fun B hB => stretch2 a b ha hb B hB) A hA
  · refine ⟨?_, h.2⟩
    rw [h.1, EuclideanSpace.volume_closedBall_fin_two]
    simp
  · intro x w _
    rw [vector2_norm]
    unfold ellipsePoint
    simp [vector2]
    refine ⟨?_, ?_⟩ <;> ring_nf <;> tauto
  · intro x
    rw [vector2_norm, Real.sqrt_le_one]
    unfold Ellipse
    simp [vector2]
    field_simp

theorem scaled_volume {k v : ℝ} {V : ℝ≥0∞} (hk : 0 < k) (h : ENNReal.ofReal k⁻¹ * V = ENNReal.ofReal v) :
    V = ENNReal.ofReal (k * v) := by
  rw [ENNReal.ofReal_mul hk.le, ← h, ← mul_assoc, ← ENNReal.ofReal_mul hk.le, mul_inv_cancel₀ hk.ne', ENNReal.ofReal_one, one_mul]

/-- The regions have the volumes they should have: `4/3 π a b c` and `π a b`. -/
theorem region_volumes (a b c : ℝ) (ha : 0 < a) (hb : 0 < b) (hc : 0 < c) :
    volume (Ellipsoid a b c) = ENNReal.ofReal (4 / 3 * Real.pi * (a * b * c)) ∧ volume (Ellipse a b) = ENNReal.ofReal (Real.pi * (a * b)) := by
  refine ⟨?_, ?_⟩
  · rw [scaled_volume (by positivity) (law3 a b c ha hb hc univ MeasurableSet.univ).1]
    congr 1
    ring
  · rw [scaled_volume (by positivity) (law2 a b ha hb univ MeasurableSet.univ).1]
    congr 1
    ring

/-! ## Theorems -/

/-- The random numbers as they are read by `drawUniformFromEllipsoid` in three dimensions. -/
def drawn3 {n : ℕ} (d : Fin n → (ℝ × ℝ × ℝ) × ℝ) (i : ℕ) : Normal :=
  if h : i < n then ⟨[(d ⟨i, h⟩).1.1, (d ⟨i, h⟩).1.2.1, (d ⟨i, h⟩).1.2.2], (d ⟨i, h⟩).2⟩ else ⟨[], 0⟩

/-- The random numbers as they are read by `drawUniformFromEllipsoid` in two dimensions. -/
def drawn2 {n : ℕ} (d : Fin n → (ℝ × ℝ) × ℝ) (i : ℕ) : Normal :=
  if h : i < n then ⟨[(d ⟨i, h⟩).1.1, (d ⟨i, h⟩).1.2], (d ⟨i, h⟩).2⟩ else ⟨[], 0⟩

theorem mapM_ofFn {β : Type} (n : ℕ) (f : ℕ → Option β) (g : Fin n → β) (h : ∀ i : Fin n, f i = some (g i)) :
    (List.range n).mapM f = some (List.ofFn g) := by
  rw [List.ofFn_eq_map, ← List.map_coe_finRange_eq_range]
  generalize List.finRange n = l
  induction l with
  | nil => rfl
  | cons i l ih => rw [List.map_cons, List.map_cons, List.mapM_cons, h i, ih]; rfl

/-- C173. Points drawn from an ellipsoid are independent of each other and uniform in it: for any regions, the probability that the first
point is in the first region, the second in the second, and so on, is the product of the parts of the volume of the ellipsoid which are in
the regions.  The volume of the ellipsoid is `4/3 π a b c`. -/
theorem C173_ellipsoid (a b : List ℝ) (cs : List (Option ℝ)) (N : List ℤ) (k : Nat) (av bv cv : ℝ) (n : ℕ) (ha : a[k]? = some av)
    (hb : b[k]? = some bv) (hc : cs[k]? = some (some cv)) (hN : N[k]? = some (n : ℤ)) (ha0 : 0 < av) (hb0 : 0 < bv) (hc0 : 0 < cv)
    (A : Fin n → Set (ℝ × ℝ × ℝ)) (hA : ∀ i, MeasurableSet (A i)) :
    volume (Ellipsoid av bv cv) = ENNReal.ofReal (4 / 3 * Real.pi * (av * bv * cv)) ∧
    (Measure.pi fun _ : Fin n => randomSpace) {d | ∃ x : Fin n → ℝ × ℝ × ℝ,
      drawEllipsoid 3 a b (some cs) N k (drawn3 d) = some (List.ofFn fun i => [(x i).1, (x i).2.1, (x i).2.2]) ∧ ∀ i, x i ∈ A i} =
      ∏ i, volume (A i ∩ Ellipsoid av bv cv) / volume (Ellipsoid av bv cv) := by
  refine ⟨(region_volumes av bv cv ha0 hb0 hc0).1, ?_⟩
  have hset : {d : Fin n → (ℝ × ℝ × ℝ) × ℝ | ∃ x : Fin n → ℝ × ℝ × ℝ,
      drawEllipsoid 3 a b (some cs) N k (drawn3 d) = some (List.ofFn fun i => [(x i).1, (x i).2.1, (x i).2.2]) ∧ ∀ i, x i ∈ A i} =
      Set.pi univ fun i => {p : (ℝ × ℝ × ℝ) × ℝ | ellipsoidPoint av bv cv p.1 p.2 ∈ A i} := by
    ext d
    have hd : drawEllipsoid 3 a b (some cs) N k (drawn3 d) = some (List.ofFn fun i : Fin n =>
        [(ellipsoidPoint av bv cv (d i).1 (d i).2).1, (ellipsoidPoint av bv cv (d i).1 (d i).2).2.1,
          (ellipsoidPoint av bv cv (d i).1 (d i).2).2.2]) := by
      unfold drawEllipsoid
      simp only [ha, hb, hc, hN, Option.bind_eq_bind, Option.bind_some]
      rw [if_neg (by omega), Int.toNat_natCast]
      refine mapM_ofFn n _ _ fun i => ?_
      simp only [drawn3, i.2, dif_pos, Fin.eta]
      simp [dotDiag, stretches, inBall, ellipsoidPoint, add_assoc]
    simp only [Set.mem_ofPred_eq, Set.mem_pi, mem_univ, true_implies]
    constructor
    · rintro ⟨x, hx, hxA⟩ i
      rw [hd, Option.some.injEq, List.ofFn_inj] at hx
      have := congrFun hx i
      simp only [List.cons.injEq, and_true] at this
      have e : ellipsoidPoint av bv cv (d i).1 (d i).2 = x i := Prod.ext this.1 (Prod.ext this.2.1 this.2.2)
      rw [e]
      exact hxA i
    · intro h
      exact ⟨fun i => ellipsoidPoint av bv cv (d i).1 (d i).2, hd, h⟩
  have : SigmaFinite randomSpace := by unfold randomSpace; infer_instance
  rw [hset, Measure.pi_pi]
  exact Finset.prod_congr rfl fun i _ => (law3 av bv cv ha0 hb0 hc0 (A i) (hA i)).2

/-- C173. The same in two dimensions, where the entry of `c` is `None`: points drawn from an ellipse are independent and uniform in area. -/
theorem C173_ellipse (a b : List ℝ) (cs : List (Option ℝ)) (N : List ℤ) (k : Nat) (av bv : ℝ) (n : ℕ) (ha : a[k]? = some av)
    (hb : b[k]? = some bv) (hc : cs[k]? = some none) (hN : N[k]? = some (n : ℤ)) (ha0 : 0 < av) (hb0 : 0 < bv)
    (A : Fin n → Set (ℝ × ℝ)) (hA : ∀ i, MeasurableSet (A i)) :
    volume (Ellipse av bv) = ENNReal.ofReal (Real.pi * (av * bv)) ∧
    (Measure.pi fun _ : Fin n => randomPlane) {d | ∃ x : Fin n → ℝ × ℝ,
      drawEllipsoid 2 a b (some cs) N k (drawn2 d) = some (List.ofFn fun i => [(x i).1, (x i).2]) ∧ ∀ i, x i ∈ A i} =
      ∏ i, volume (A i ∩ Ellipse av bv) / volume (Ellipse av bv) := by
  refine ⟨(region_volumes av bv 1 ha0 hb0 one_pos).2, ?_⟩
  have hset : {d : Fin n → (ℝ × ℝ) × ℝ | ∃ x : Fin n → ℝ × ℝ,
      drawEllipsoid 2 a b (some cs) N k (drawn2 d) = some (List.ofFn fun i => [(x i).1, (x i).2]) ∧ ∀ i, x i ∈ A i} =
      Set.pi univ fun i => {p : (ℝ × ℝ) × ℝ | ellipsePoint av bv p.1 p.2 ∈ A i} := by
    ext d
    have hd : drawEllipsoid 2 a b (some cs) N k (drawn2 d) = some (List.ofFn fun i : Fin n =>
        [(ellipsePoint av bv (d i).1 (d i).2).1, (ellipsePoint av bv (d i).1 (d i).2).2]) := by
      unfold drawEllipsoid
      simp only [ha, hb, hc, hN, Option.bind_eq_bind, Option.bind_some]
      rw [if_neg (by omega), Int.toNat_natCast]
      refine mapM_ofFn n _ _ fun i => ?_
      simp only [drawn2, i.2, dif_pos, Fin.eta]
      simp only [dotDiag, stretches, inBall, List.map_cons, List.map_nil, List.length_cons, List.length_nil, if_true,
        List.zipWith_cons_cons, List.zipWith_nil_left, List.sum_cons, List.sum_nil, add_zero, Nat.cast_ofNat, stretch av ha0,
        stretch bv hb0, ellipsePoint]
    simp only [Set.mem_ofPred_eq, Set.mem_pi, mem_univ, true_implies]
    constructor
    · rintro ⟨x, hx, hxA⟩ i
      rw [hd, Option.some.injEq, List.ofFn_inj] at hx
      have := congrFun hx i
      simp only [List.cons.injEq, and_true] at this
      have e : ellipsePoint av bv (d i).1 (d i).2 = x i := Prod.ext this.1 this.2
      rw [e]
      exact hxA i
    · intro h
      exact ⟨fun i => ellipsePoint av bv (d i).1 (d i).2, hd, h⟩
  have : SigmaFinite randomPlane := by unfold randomPlane; infer_instance
  rw [hset, Measure.pi_pi]
  exact Finset.prod_congr rfl fun i _ => (law2 av bv ha0 hb0 (A i) (hA i)).2

/-- Two points drawn from the unit ball: both are in the upper half with the square of its share of the volume. -/
example : (Measure.pi fun _ : Fin 2 => randomSpace) {d | ∃ x : Fin 2 → ℝ × ℝ × ℝ,
    drawEllipsoid 3 [1] [1] (some [some 1]) [2] 0 (drawn3 d) = some (List.ofFn fun i => [(x i).1, (x i).2.1, (x i).2.2]) ∧
      ∀ i, x i ∈ {y | 0 < y.2.2}} = (volume ({y : ℝ × ℝ × ℝ | 0 < y.2.2} ∩ Ellipsoid 1 1 1) / volume (Ellipsoid 1 1 1)) ^ 2 := by
  have h := (C173_ellipsoid [1] [1] [some 1] [2] 0 1 1 1 2 rfl rfl rfl rfl one_pos one_pos one_pos (fun _ => {y | 0 < y.2.2})
    fun _ => measurableSet_lt measurable_const (by fun_prop)).2
  rw [h]
  simp

/-- A point drawn from an ellipse is in the ellipse half as large with probability 1/4. -/
example : (Measure.pi fun _ : Fin 1 => randomPlane) {d | ∃ x : Fin 1 → ℝ × ℝ,
    drawEllipsoid 2 [4] [2] (some [none]) [1] 0 (drawn2 d) = some (List.ofFn fun i => [(x i).1, (x i).2]) ∧
      ∀ i, x i ∈ Ellipse 2 1} = ENNReal.ofReal (1 / 4) := by
  have h := (C173_ellipse [4] [2] [none] [1] 0 4 2 1 rfl rfl rfl rfl (by norm_num) (by norm_num) (fun _ => Ellipse 2 1)
    fun _ => ellipse_measurable 2 1).2
  rw [h]
  have hsub : Ellipse 2 1 ∩ Ellipse 4 2 = Ellipse 2 1 := by
    refine inter_eq_left.2 fun x hx => ?_
    simp only [Ellipse, Set.mem_ofPred_eq] at hx ⊢
    nlinarith [sq_nonneg x.1, sq_nonneg x.2]
  simp only [Finset.univ_unique, Finset.prod_singleton, hsub, (region_volumes 2 1 1 (by norm_num) (by norm_num) (by norm_num)).2,
    (region_volumes 4 2 1 (by norm_num) (by norm_num) (by norm_num)).2]
  rw [← ENNReal.ofReal_div_of_pos (by positivity)]
  congr 1
  field_simp

end Verif.Mock
