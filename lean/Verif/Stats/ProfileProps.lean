import Verif.Stats.Model
import Mathlib.Analysis.SpecialFunctions.Pow.Deriv
import Mathlib.Analysis.SpecialFunctions.Pow.Asymptotics
import Mathlib.Analysis.SpecialFunctions.Pow.Continuity

/-!
# Density profile models (C48)
-/

namespace Verif.Stats

open Filter Topology

/-- C48. The NFW profile is the α-β-γ model with (1, 3, 1) and the Hernquist profile the one with
(1, 4, 1), at every radius. -/
theorem C48_special_cases (rho rs r : ℝ) :
    nfw rho rs r = alphaBetaGamma rho 1 3 1 rs r ∧ hernquist rho rs r = alphaBetaGamma rho 1 4 1 rs r := by
  unfold nfw hernquist alphaBetaGamma
  constructor
  · rw [Real.rpow_one, show ((3 : ℝ) - 1) / 1 = ((2 : ℕ) : ℝ) by norm_num, Real.rpow_natCast]
  · rw [Real.rpow_one, show ((4 : ℝ) - 1) / 1 = ((3 : ℕ) : ℝ) by norm_num, Real.rpow_natCast]

/-- The denominator of the α-β-γ model as a function of `x = r / r_s`. -/
theorem abg_denominator {a b g x : ℝ} (ha : 0 < a) (hx : 0 < x) :
    x ^ g * (1 + x ^ a) ^ ((b - g) / a) = (x ^ a / (1 + x ^ a)) ^ (g / a) * (1 + x ^ a) ^ (b / a) := by
  have hxa : 0 < x ^ a := Real.rpow_pos_of_pos hx a
  have h1 : 0 < 1 + x ^ a := by linarith
  rw [Real.div_rpow hxa.le h1.le, ← Real.rpow_mul hx.le, mul_div_cancel₀ _ ha.ne', sub_div,
    Real.rpow_sub h1]
  have := (Real.rpow_pos_of_pos h1 (g / a)).ne'
  field_simp

/-- C48. The α-β-γ model (hence NFW and Hernquist) is positive and strictly decreasing in radius. -/
theorem C48_alpha_beta_gamma (rho a b g rs : ℝ) (hrho : 0 < rho) (ha : 0 < a) (hb : 0 < b) (hg : 0 ≤ g)
    (hrs : 0 < rs) :
    (∀ r, 0 < r → 0 < alphaBetaGamma rho a b g rs r) ∧
    ∀ r r', 0 < r → r < r' → alphaBetaGamma rho a b g rs r' < alphaBetaGamma rho a b g rs r := by
  have hden : ∀ x : ℝ, 0 < x → 0 < x ^ g * (1 + x ^ a) ^ ((b - g) / a) := fun x hx =>
    mul_pos (Real.rpow_pos_of_pos hx g)
      (Real.rpow_pos_of_pos (by have := Real.rpow_pos_of_pos hx a; linarith) _)
  refine ⟨fun r hr => div_pos hrho (hden _ (div_pos hr hrs)), fun r r' hr hrr => ?_⟩
  unfold alphaBetaGamma
  have hx : 0 < r / rs := div_pos hr hrs
  have hxx : r / rs < r' / rs := div_lt_div_of_pos_right hrr hrs
  refine div_lt_div_of_pos_left hrho (hden _ hx) ?_
  rw [abg_denominator ha hx, abg_denominator ha (hx.trans hxx)]
  have hp : 0 < (r / rs) ^ a := Real.rpow_pos_of_pos hx a
  have hpp : (r / rs) ^ a < (r' / rs) ^ a := Real.rpow_lt_rpow hx.le hxx ha
  refine mul_lt_mul' ?_ ?_ (Real.rpow_nonneg (by linarith) _) (Real.rpow_pos_of_pos
    (div_pos (hp.trans hpp) (by linarith)) _)
  · refine Real.rpow_le_rpow (div_nonneg hp.le (by linarith)) ?_ (div_nonneg hg ha.le)
    rw [div_le_div_iff₀ (by linarith) (by linarith)]
    nlinarith
  · exact Real.rpow_lt_rpow (by linarith) (by linarith) (div_pos hb ha)

/-- The parameters of an NFW-like profile meet the hypotheses. -/
example : (0 : ℝ) < 100 ∧ (0 : ℝ) < 1 ∧ (0 : ℝ) < 3 ∧ (0 : ℝ) ≤ 1 ∧ (0 : ℝ) < 1 / 5 := by norm_num

/-- C48. `γ` is the inner and `β` the outer slope of the α-β-γ model: `ρ(r) (r/r_s)^γ → ρ_s` at the center
and `ρ(r) (r/r_s)^β → ρ_s` far out. -/
theorem C48_slopes (rho a b g rs : ℝ) (ha : 0 < a) (hrs : 0 < rs) :
    Tendsto (fun r => alphaBetaGamma rho a b g rs r * (r / rs) ^ g) (𝓝[>] 0) (𝓝 rho) ∧
    Tendsto (fun r => alphaBetaGamma rho a b g rs r * (r / rs) ^ b) atTop (𝓝 rho) := by
  constructor
  · have h1 : Tendsto (fun r : ℝ => (r / rs) ^ a) (𝓝[>] 0) (𝓝 0) := by
      have : Tendsto (fun r : ℝ => (r / rs) ^ a) (𝓝 0) (𝓝 ((0 / rs) ^ a)) :=
        ((tendsto_id.div_const rs).rpow_const (Or.inr ha.le))
      rw [zero_div, Real.zero_rpow ha.ne'] at this
      exact this.mono_left nhdsWithin_le_nhds
    have h2 : Tendsto (fun r : ℝ => rho / (1 + (r / rs) ^ a) ^ ((b - g) / a)) (𝓝[>] 0)
        (𝓝 (rho / (1 + 0) ^ ((b - g) / a))) :=
      tendsto_const_nhds.div ((tendsto_const_nhds.add h1).rpow_const (Or.inl (by norm_num)))
        (by rw [add_zero, Real.one_rpow]; norm_num)
    rw [add_zero, Real.one_rpow, div_one] at h2
    refine h2.congr' ?_
    filter_upwards [self_mem_nhdsWithin] with r hr
    have hx : 0 < r / rs := div_pos hr hrs
    have := (Real.rpow_pos_of_pos hx g).ne'
    unfold alphaBetaGamma
    rw [div_mul_eq_mul_div, mul_comm ((r / rs) ^ g), mul_div_mul_right _ _ this]
  · have h1 : Tendsto (fun r : ℝ => ((r / rs) ^ a)⁻¹) atTop (𝓝 0) :=
      ((tendsto_rpow_atTop ha).comp (tendsto_id.atTop_div_const hrs)).inv_tendsto_atTop
    have h2 : Tendsto (fun r : ℝ => rho / (1 + ((r / rs) ^ a)⁻¹) ^ ((b - g) / a)) atTop
        (𝓝 (rho / (1 + 0) ^ ((b - g) / a))) :=
      tendsto_const_nhds.div ((tendsto_const_nhds.add h1).rpow_const (Or.inl (by norm_num)))
        (by rw [add_zero, Real.one_rpow]; norm_num)
    rw [add_zero, Real.one_rpow, div_one] at h2
    refine h2.congr' ?_
    filter_upwards [eventually_gt_atTop 0] with r hr
    have hx : 0 < r / rs := div_pos hr hrs
    have hxa := Real.rpow_pos_of_pos hx a
    unfold alphaBetaGamma
    have e : 1 + ((r / rs) ^ a)⁻¹ = (1 + (r / rs) ^ a) / (r / rs) ^ a := by field_simp; ring
    rw [e, Real.div_rpow (by linarith) hxa.le, ← Real.rpow_mul hx.le, mul_div_cancel₀ _ ha.ne',
      Real.rpow_sub hx]
    have := (Real.rpow_pos_of_pos hx g).ne'
    have := (Real.rpow_pos_of_pos hx b).ne'
    have := (Real.rpow_pos_of_pos (show 0 < 1 + (r / rs) ^ a by linarith) ((b - g) / a)).ne'
    field_simp

/-- C48. The Einasto model is positive, strictly decreasing, equals `ρ_s` at `r_s`, and its logarithmic
slope is `-2 (r / r_s)^α`, in particular `-2` at `r_s`. -/
theorem C48_einasto (rho a rs : ℝ) (hrho : 0 < rho) (ha : 0 < a) (hrs : 0 < rs) :
    einasto rho a rs rs = rho ∧
    (∀ r, 0 < einasto rho a rs r) ∧
    (∀ r r', 0 ≤ r → r < r' → einasto rho a rs r' < einasto rho a rs r) ∧
    ∀ r, 0 < r → HasDerivAt (einasto rho a rs) (-2 * (r / rs) ^ a * einasto rho a rs r / r) r := by
  refine ⟨?_, fun r => mul_pos hrho (Real.exp_pos _), fun r r' hr hrr => ?_, fun r hr => ?_⟩
  · unfold einasto; rw [div_self hrs.ne', Real.one_rpow, sub_self, mul_zero, Real.exp_zero, mul_one]
  · unfold einasto
    refine mul_lt_mul_of_pos_left (Real.exp_lt_exp.2 ?_) hrho
    have h1 : (r / rs) ^ a < (r' / rs) ^ a :=
      Real.rpow_lt_rpow (div_nonneg hr hrs.le) (div_lt_div_of_pos_right hrr hrs) ha
    have h2 : -2 / a < 0 := div_neg_of_neg_of_pos (by norm_num) ha
    nlinarith
  · unfold einasto
    have hx : r / rs ≠ 0 := (div_pos hr hrs).ne'
    have h1 : HasDerivAt (fun r : ℝ => r / rs) (1 / rs) r := (hasDerivAt_id r).div_const rs
    have h2 := h1.rpow_const (p := a) (Or.inl hx)
    have h3 := (((h2.sub_const 1).const_mul (-2 / a)).exp).const_mul rho
    refine h3.congr_deriv ?_
    rw [Real.rpow_sub_one hx]
    field_simp

end Verif.Stats
