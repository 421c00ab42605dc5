import Verif.Cosmo.Model
import Mathlib.Topology.Algebra.Order.Field
import Mathlib.Order.Filter.AtTopBot.Field
import Mathlib.Topology.Instances.Real.Lemmas

/-!
# Virial overdensity and critical density (C115, C116)
-/

namespace Verif.Cosmo

open Real Filter

/-! ## Specification -/

/-- Mean matter density at redshift `z` in units of today's critical density. -/
noncomputable def matterDensity (omegaM z : ℝ) : ℝ := omegaM * (1 + z) ^ 3

/-- Critical density at redshift `z` in the same units (matter and a cosmological constant). -/
noncomputable def criticalDensity (omegaM omegaL z : ℝ) : ℝ := matterDensity omegaM z + omegaL

/-- The fit of Bryan and Norman (1998): density of virialised objects in units of the critical density, for
`x = Ω_m(z) - 1`. -/
noncomputable def bryanNorman (x : ℝ) : ℝ := 18 * π ^ 2 + 82 * x - 39 * x ^ 2

/-- The critical density in solar masses / h over cubed Mpc / h, as tabulated (Particle Data Group). -/
noncomputable def tabulatedRhoCrit : ℝ := 2.775 * 10 ^ 11

/-! ## Lemmas -/

/-- `getDelta` as a function of the matter fraction. -/
noncomputable def deltaOf (u : ℝ) : ℝ := (18 * π ^ 2 - 121) / u + 160 - 39 * u - 1

theorem getDelta_eq (z omegaM omegaL : ℝ) (hm : 0 < omegaM) (hl : 0 ≤ omegaL) (hz : -1 < z) :
    getDelta z omegaM omegaL = some (deltaOf (matterDensity omegaM z / criticalDensity omegaM omegaL z)) := by
  have h1 : 0 < omegaM * (1 + z) ^ 3 := mul_pos hm (pow_pos (by linarith) 3)
  have h2 : 0 < omegaM * (1 + z) ^ 3 + omegaL := by linarith
  unfold getDelta pyDiv
  rw [if_neg h2.ne', Option.bind_some]
  have h3 : omegaM * (1 + z) ^ 3 / (omegaM * (1 + z) ^ 3 + omegaL) ≠ 0 := (div_pos h1 h2).ne'
  simp only
  rw [if_neg (by simpa using h3), Option.map_some]
  congr 1
  unfold deltaOf criticalDensity matterDensity
  generalize omegaM * (1 + z) ^ 3 / (omegaM * (1 + z) ^ 3 + omegaL) = u at h3
  rw [sub_add_cancel]
  field_simp
  ring

theorem eighteen : 121 < 18 * π ^ 2 := by nlinarith [pi_gt_three]

theorem deltaOf_lt {u v : ℝ} (hu : 0 < u) (h : u < v) : deltaOf v < deltaOf u := by
  unfold deltaOf
  have : (18 * π ^ 2 - 121) / v < (18 * π ^ 2 - 121) / u :=
    div_lt_div_of_pos_left (by linarith [eighteen]) hu h
  linarith

theorem fraction_pos (z omegaM omegaL : ℝ) (hm : 0 < omegaM) (hl : 0 ≤ omegaL) (hz : -1 < z) :
    0 < matterDensity omegaM z / criticalDensity omegaM omegaL z := by
  have h1 : 0 < omegaM * (1 + z) ^ 3 := mul_pos hm (pow_pos (by linarith) 3)
  exact div_pos h1 (by unfold criticalDensity matterDensity; linarith)

theorem fraction_le (z omegaM omegaL : ℝ) (hm : 0 < omegaM) (hl : 0 ≤ omegaL) (hz : -1 < z) :
    matterDensity omegaM z / criticalDensity omegaM omegaL z ≤ 1 := by
  have h1 : 0 < matterDensity omegaM z := mul_pos hm (pow_pos (by linarith) 3)
  unfold criticalDensity
  rw [div_le_one (by linarith)]
  linarith

/-! ## C115 -/

/-- C115. For a universe with matter and every redshift after the big bang, the density of virialised
objects, `(1 + Δ)` times the mean matter density, is the fit of Bryan and Norman times the critical density
at this redshift. -/
theorem C115_virial_density (z omegaM omegaL : ℝ) (hm : 0 < omegaM) (hl : 0 ≤ omegaL) (hz : -1 < z) :
    ∃ delta, getDelta z omegaM omegaL = some delta ∧
      (1 + delta) * matterDensity omegaM z = criticalDensity omegaM omegaL z *
        bryanNorman (matterDensity omegaM z / criticalDensity omegaM omegaL z - 1) := by
  refine ⟨_, getDelta_eq z omegaM omegaL hm hl hz, ?_⟩
  have h1 : 0 < matterDensity omegaM z := mul_pos hm (pow_pos (by linarith) 3)
  have h2 : 0 < criticalDensity omegaM omegaL z := by unfold criticalDensity; linarith
  unfold deltaOf bryanNorman
  have h1' := h1.ne'
  have h2' := h2.ne'
  field_simp
  ring

/-- C115. The overdensity is at least that of a universe without cosmological constant, `18 π² - 1`, and
equal to it without cosmological constant. -/
theorem C115_bound (z omegaM omegaL delta : ℝ) (hm : 0 < omegaM) (hl : 0 ≤ omegaL) (hz : -1 < z)
    (h : getDelta z omegaM omegaL = some delta) :
    18 * π ^ 2 - 1 ≤ delta ∧ (delta = 18 * π ^ 2 - 1 ↔ omegaL = 0) := by
  rw [getDelta_eq z omegaM omegaL hm hl hz] at h
  rw [← Option.some.inj h]
  have h1 : deltaOf 1 = 18 * π ^ 2 - 1 := by unfold deltaOf; ring
  have hm' : 0 < matterDensity omegaM z := mul_pos hm (pow_pos (by linarith) 3)
  rcases hl.eq_or_lt with rfl | hl'
  · have : matterDensity omegaM z / criticalDensity omegaM 0 z = 1 := by
      unfold criticalDensity; rw [add_zero, div_self hm'.ne']
    rw [this, h1]
    simp
  · have hlt : matterDensity omegaM z / criticalDensity omegaM omegaL z < 1 := by
      unfold criticalDensity
      rw [div_lt_one (by linarith)]
      linarith
    have := deltaOf_lt (fraction_pos z omegaM omegaL hm hl hz) hlt
    rw [h1] at this
    exact ⟨this.le, fun e => absurd e this.ne', fun e => absurd e hl'.ne'⟩

/-- C115. With a positive cosmological constant the overdensity decreases with redshift. -/
theorem C115_decreasing (z z' omegaM omegaL delta delta' : ℝ) (hm : 0 < omegaM) (hl : 0 < omegaL)
    (hz : -1 < z) (hzz : z < z') (h : getDelta z omegaM omegaL = some delta)
    (h' : getDelta z' omegaM omegaL = some delta') : delta' < delta := by
  rw [getDelta_eq z omegaM omegaL hm hl.le hz] at h
  rw [getDelta_eq z' omegaM omegaL hm hl.le (by linarith)] at h'
  rw [← Option.some.inj h, ← Option.some.inj h']
  apply deltaOf_lt (fraction_pos z omegaM omegaL hm hl.le hz)
  have h1 : 0 < matterDensity omegaM z := mul_pos hm (pow_pos (by linarith) 3)
  have h2 : matterDensity omegaM z < matterDensity omegaM z' :=
    mul_lt_mul_of_pos_left (pow_lt_pow_left₀ (by linarith) (by linarith) (by norm_num)) hm
  unfold criticalDensity
  rw [div_lt_div_iff₀ (by linarith) (by linarith)]
  nlinarith

/-- C115. At high redshift the overdensity tends to that of a universe without cosmological constant. -/
theorem C115_limit (omegaM omegaL : ℝ) (hm : 0 < omegaM) (hl : 0 ≤ omegaL) :
    Tendsto (fun z => (getDelta z omegaM omegaL).getD 0) atTop (nhds (18 * π ^ 2 - 1)) := by
  have h1 : deltaOf 1 = 18 * π ^ 2 - 1 := by unfold deltaOf; ring
  have hden : Tendsto (fun z : ℝ => matterDensity omegaM z) atTop atTop := by
    unfold matterDensity
    apply Tendsto.const_mul_atTop hm
    exact (tendsto_pow_atTop (by norm_num)).comp (tendsto_atTop_add_const_left _ 1 tendsto_id)
  have hfrac : Tendsto (fun z : ℝ => matterDensity omegaM z / criticalDensity omegaM omegaL z) atTop
      (nhds 1) := by
    have e : ∀ᶠ z : ℝ in atTop, 1 - omegaL / criticalDensity omegaM omegaL z =
        matterDensity omegaM z / criticalDensity omegaM omegaL z := by
      filter_upwards [eventually_gt_atTop (-1)] with z hz
      have h1 : 0 < matterDensity omegaM z := mul_pos hm (pow_pos (by linarith) 3)
      have h2 : criticalDensity omegaM omegaL z ≠ 0 := by unfold criticalDensity; linarith
      field_simp
      unfold criticalDensity; ring
    refine Tendsto.congr' e ?_
    have : Tendsto (fun z : ℝ => omegaL / criticalDensity omegaM omegaL z) atTop (nhds 0) := by
      apply Tendsto.div_atTop tendsto_const_nhds
      unfold criticalDensity
      exact tendsto_atTop_add_const_right _ _ hden
    simpa using tendsto_const_nhds.sub this
  have hcont : Tendsto (fun z : ℝ => deltaOf (matterDensity omegaM z / criticalDensity omegaM omegaL z)) atTop
      (nhds (deltaOf 1)) := by
    unfold deltaOf
    have := hfrac
    refine Tendsto.sub (Tendsto.sub (Tendsto.add ?_ tendsto_const_nhds) ?_) tendsto_const_nhds
    · exact Tendsto.div tendsto_const_nhds hfrac one_ne_zero
    · exact Tendsto.mul tendsto_const_nhds hfrac
  rw [h1] at hcont
  refine Tendsto.congr' ?_ hcont
  filter_upwards [eventually_gt_atTop (-1)] with z hz
  rw [getDelta_eq z omegaM omegaL hm hl hz]
  rfl

/-- C115. Without matter the call raises ZeroDivisionError. -/
theorem C115_no_matter (z omegaL : ℝ) : getDelta z 0 omegaL = none := by
  unfold getDelta pyDiv
  by_cases h : omegaL = 0
  · simp [h]
  · simp [h]

/-- Matter and cosmological constant 0.3 and 0.7, today: about 336. -/
example : ∃ delta, getDelta 0 0.3 0.7 = some delta ∧ 330 < delta ∧ delta < 340 := by
  refine ⟨_, getDelta_eq 0 0.3 0.7 (by norm_num) (by norm_num) (by norm_num), ?_⟩
  have e : matterDensity 0.3 0 / criticalDensity 0.3 0.7 0 = 0.3 := by
    unfold criticalDensity matterDensity; norm_num
  rw [e]
  unfold deltaOf
  have h1 := pi_gt_d2
  have h2 := pi_lt_d2
  constructor <;> · norm_num; nlinarith

/-! ## C116 -/

/-- The critical density is the tabulated one to within one per cent. -/
theorem C116_critical_density : |getRhoCrit - tabulatedRhoCrit| ≤ tabulatedRhoCrit / 100 := by
  have h1 := pi_gt_d4
  have h2 := pi_lt_d4
  have e : getRhoCrit * π = 3 * 3.086 * 10 ^ 13 / (8 * 6.674 * 2) := by
    unfold getRhoCrit
    have := pi_pos.ne'
    field_simp
    norm_num
  rw [abs_le]
  unfold tabulatedRhoCrit
  norm_num at e ⊢
  constructor
  · nlinarith
  · nlinarith

/-- C116 (partial). `N³` particles of this mass fill a box of side `L` with the critical density; the call
raises ZeroDivisionError for no particles.  Missing: they should fill it with the matter density
(`C116_matter_density_refuted`). -/
theorem C116_box_partial (N : Nat) (hN : N ≠ 0) (L : ℝ) :
    ∃ m, getMassDMParticle N L = some m ∧ (N : ℝ) ^ 3 * m = getRhoCrit * L ^ 3 := by
  have h : (N : ℝ) ≠ 0 := by exact_mod_cast hN
  refine ⟨_, by unfold getMassDMParticle pyDiv; rw [if_neg h]; rfl, ?_⟩
  field_simp

theorem rhoCrit_pos : 0 < getRhoCrit := by
  have := (abs_le.1 C116_critical_density).1
  unfold tabulatedRhoCrit at this
  norm_num at this
  linarith

/-- C116 is false: unless all of the critical density is matter, the particles do not make up the matter in
the box, for every number of particles and every box. -/
theorem C116_matter_density_refuted (omegaM : ℝ) (hm : omegaM ≠ 1) (N : Nat) (hN : N ≠ 0) (L : ℝ)
    (hL : 0 < L) (m : ℝ) (h : getMassDMParticle N L = some m) :
    (N : ℝ) ^ 3 * m ≠ omegaM * getRhoCrit * L ^ 3 := by
  obtain ⟨m', h1, h2⟩ := C116_box_partial N hN L
  rw [h] at h1
  obtain rfl := Option.some.inj h1
  rw [h2]
  intro e
  have h3 : 0 < getRhoCrit * L ^ 3 := mul_pos rhoCrit_pos (pow_pos hL 3)
  have : (omegaM - 1) * (getRhoCrit * L ^ 3) = 0 := by linarith
  rcases mul_eq_zero.1 this with h4 | h4
  · exact hm (by linarith)
  · exact h3.ne' h4

theorem C116_no_particles (L : ℝ) : getMassDMParticle 0 L = none := by
  unfold getMassDMParticle pyDiv; simp

/-- 512³ particles in a box of 40 Mpc/h with a matter fraction of 0.3: too heavy. -/
example : ∃ m, getMassDMParticle 512 40 = some m ∧ 0.3 * getRhoCrit * 40 ^ 3 < (512 : ℝ) ^ 3 * m := by
  obtain ⟨m, h1, h2⟩ := C116_box_partial 512 (by norm_num) 40
  refine ⟨m, h1, ?_⟩
  have := rhoCrit_pos
  push_cast at h2
  rw [h2]
  nlinarith

end Verif.Cosmo
