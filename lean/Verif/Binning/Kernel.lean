import Verif.Binning.Model
import Mathlib.Analysis.SpecialFunctions.Gaussian.GaussianIntegral
import Mathlib.MeasureTheory.Group.Integral

/-!
# The kernel-based profile distributes exactly the total mass (C77)
-/

namespace Verif.Binning

open MeasureTheory Set Real

/-- First moment of a shifted Gaussian. -/
theorem integral_shifted (a b : ℝ) (hb : 0 < b) :
    Integrable (fun x : ℝ => x * exp (-b * (x - a) ^ 2)) ∧
    ∫ x : ℝ, x * exp (-b * (x - a) ^ 2) = a * √(π / b) := by
  have h1 : Integrable (fun x : ℝ => x * exp (-b * x ^ 2)) := integrable_mul_exp_neg_mul_sq hb
  have h2 : Integrable (fun x : ℝ => a * exp (-b * x ^ 2)) :=
    (integrable_exp_neg_mul_sq hb).const_mul a
  have heq : (fun x : ℝ => x * exp (-b * (x - a) ^ 2)) =
      fun x : ℝ => (fun y : ℝ => y * exp (-b * y ^ 2) + a * exp (-b * y ^ 2)) (x - a) := by
    funext x; simp only; ring
  have hodd : ∫ x : ℝ, x * exp (-b * x ^ 2) = 0 := by
    have := integral_neg_eq_self (fun x : ℝ => x * exp (-b * x ^ 2)) volume
    have hn : (fun x : ℝ => -x * exp (-b * (-x) ^ 2)) = fun x : ℝ => -(x * exp (-b * x ^ 2)) := by
      funext x; ring_nf
    rw [hn, integral_neg] at this
    linarith
  rw [heq]
  constructor
  · exact (h1.add h2).comp_sub_right a
  · rw [integral_sub_right_eq_self (fun y : ℝ => y * exp (-b * y ^ 2) + a * exp (-b * y ^ 2)) a,
      integral_add h1 h2, hodd, integral_const_mul, integral_gaussian, zero_add]

theorem integral_fold (g : ℝ → ℝ) (hg : Integrable g) :
    IntegrableOn (fun x => g x + g (-x)) (Ioi 0) ∧
    ∫ x in Ioi (0 : ℝ), (g x + g (-x)) = ∫ x, g x := by
  have hneg : Integrable (fun x => g (-x)) := hg.comp_neg
  refine ⟨(hg.add hneg).integrableOn, ?_⟩
  rw [integral_add hg.integrableOn hneg.integrableOn, integral_comp_neg_Ioi, neg_zero, add_comm,
    intervalIntegral.integral_Iic_add_Ioi hg.integrableOn hg.integrableOn]

/-- Positivity and symmetry of the kernel in the two radii. -/
theorem kTilde_pos (r ri h : ℝ) (hr : 0 < r) (hri : 0 < ri) (hh : 0 < h) : 0 < kTilde r ri h := by
  unfold kTilde
  have hlt : -(ri + r) ^ 2 / (2 * h ^ 2) < -(ri - r) ^ 2 / (2 * h ^ 2) := by
    apply div_lt_div_of_pos_right _ (by positivity)
    nlinarith [mul_pos hr hri]
  have := exp_lt_exp.2 hlt
  have h1 : 0 < exp (-(ri - r) ^ 2 / (2 * h ^ 2)) - exp (-(ri + r) ^ 2 / (2 * h ^ 2)) := by linarith
  have h2 : 0 < (2 * π) ^ ((3 : ℝ) / 2) := rpow_pos_of_pos (by positivity) _
  positivity

/-- The kernel of a particle integrates to one over space. -/
theorem kTilde_normalised (ri h : ℝ) (hri : 0 < ri) (hh : 0 < h) :
    IntegrableOn (fun r => 4 * π * r ^ 2 * (kTilde r ri h / h ^ 3)) (Ioi 0) ∧
    ∫ r in Ioi (0 : ℝ), 4 * π * r ^ 2 * (kTilde r ri h / h ^ 3) = 1 := by
  have hb : 0 < 1 / (2 * h ^ 2) := by positivity
  obtain ⟨hint, hval⟩ := integral_shifted ri (1 / (2 * h ^ 2)) hb
  obtain ⟨hint', hval'⟩ := integral_fold _ hint
  set c : ℝ := 4 * π / (2 * (2 * π) ^ ((3 : ℝ) / 2)) / (ri * h) with hc
  have heq : EqOn (fun r => 4 * π * r ^ 2 * (kTilde r ri h / h ^ 3))
      (fun x => c * (x * exp (-(1 / (2 * h ^ 2)) * (x - ri) ^ 2) +
        -x * exp (-(1 / (2 * h ^ 2)) * (-x - ri) ^ 2))) (Ioi 0) := by
    intro r hr
    have hr : r ≠ 0 := (mem_Ioi.1 hr).ne'
    have e1 : -(ri - r) ^ 2 / (2 * h ^ 2) = -(1 / (2 * h ^ 2)) * (r - ri) ^ 2 := by ring
    have e2 : -(ri + r) ^ 2 / (2 * h ^ 2) = -(1 / (2 * h ^ 2)) * (-r - ri) ^ 2 := by ring
    have hp : (2 * π) ^ ((3 : ℝ) / 2) ≠ 0 := (rpow_pos_of_pos (by positivity) _).ne'
    simp only [kTilde, e1, e2, hc]
    have := hh.ne'
    have := hri.ne'
    field_simp
    ring
  constructor
  · exact IntegrableOn.congr_fun (hint'.const_mul c) heq.symm measurableSet_Ioi
  · rw [setIntegral_congr_fun measurableSet_Ioi heq, integral_const_mul, hval', hval, hc]
    have hp : (2 * π) ^ ((3 : ℝ) / 2) = 2 * π * √(2 * π) := by
      rw [show (3 : ℝ) / 2 = 1 + 1 / 2 by norm_num, rpow_add (by positivity), rpow_one,
        ← sqrt_eq_rpow]
    have hs : √(π / (1 / (2 * h ^ 2))) = √(2 * π) * h := by
      rw [show π / (1 / (2 * h ^ 2)) = (2 * π) * h ^ 2 by field_simp,
        sqrt_mul (by positivity), sqrt_sq hh.le]
    rw [hp, hs]
    have : √(2 * π) ≠ 0 := (sqrt_pos.2 (by positivity)).ne'
    have := hh.ne'
    have := hri.ne'
    have := pi_pos.ne'
    field_simp
    norm_num

theorem kernelWidth_pos (r200 d : ℝ) (hr : 0 < r200) (hd : 0 < d) : 0 < kernelWidth r200 d := by
  unfold kernelWidth
  have : 0 < (d / (0.1 * r200)) ^ (0.5 : ℝ) := rpow_pos_of_pos (by positivity) _
  positivity

theorem densKernel_eq_sum (r200 : ℝ) (ps : List (ℝ × ℝ)) (r : ℝ) :
    densKernel r200 ps r = (ps.map fun md =>
      md.1 * kTilde r md.2 (kernelWidth r200 md.2) / kernelWidth r200 md.2 ^ 3).sum := by
  unfold densKernel
  have : ∀ (acc : ℝ), ps.foldl (fun acc md =>
      acc + md.1 * kTilde r md.2 (kernelWidth r200 md.2) / kernelWidth r200 md.2 ^ 3) acc =
      acc + (ps.map fun md =>
        md.1 * kTilde r md.2 (kernelWidth r200 md.2) / kernelWidth r200 md.2 ^ 3).sum := by
    induction ps with
    | nil => intro acc; simp
    | cons p ps ih => intro acc; simp only [List.foldl_cons, ih, List.map_cons, List.sum_cons]; ring
  rw [this, zero_add]

/-- C77. The kernel-based density profile of an object, integrated over space, is the total mass of its
particles; and the density is positive at every positive radius if all masses are.  No particle may sit
exactly at the center (where the code divides by zero). -/
theorem C77_total_mass (r200 : ℝ) (hr : 0 < r200) (ps : List (ℝ × ℝ)) (hd : ∀ md ∈ ps, 0 < md.2) :
    (∫ r in Ioi (0 : ℝ), 4 * π * r ^ 2 * densKernel r200 ps r = (ps.map fun md => md.1).sum) ∧
    ((∀ md ∈ ps, 0 < md.1) → ps ≠ [] → ∀ r, 0 < r → 0 < densKernel r200 ps r) := by
  constructor
  · have key : IntegrableOn (fun r => 4 * π * r ^ 2 * densKernel r200 ps r) (Ioi 0) ∧
        ∫ r in Ioi (0 : ℝ), 4 * π * r ^ 2 * densKernel r200 ps r = (ps.map fun md => md.1).sum := by
      simp only [densKernel_eq_sum]
      induction ps with
      | nil => simp
      | cons md ps ih =>
        obtain ⟨i2, v2⟩ := ih fun md h => hd md (by simp [h])
        have hpos := hd md (by simp)
        obtain ⟨i1, v1⟩ := kTilde_normalised md.2 (kernelWidth r200 md.2) hpos
          (kernelWidth_pos r200 _ hr hpos)
        have heq : (fun r => 4 * π * r ^ 2 * ((md :: ps).map fun md => md.1 *
            kTilde r md.2 (kernelWidth r200 md.2) / kernelWidth r200 md.2 ^ 3).sum) = fun r =>
            md.1 * (4 * π * r ^ 2 * (kTilde r md.2 (kernelWidth r200 md.2) /
              kernelWidth r200 md.2 ^ 3)) +
            4 * π * r ^ 2 * (ps.map fun md => md.1 *
              kTilde r md.2 (kernelWidth r200 md.2) / kernelWidth r200 md.2 ^ 3).sum := by
          funext r
          rw [List.map_cons, List.sum_cons]; ring
        rw [heq]
        refine ⟨(i1.const_mul md.1).add i2, ?_⟩
        rw [integral_add (i1.const_mul md.1) i2, integral_const_mul, v1, v2, List.map_cons,
          List.sum_cons, mul_one]
    exact key.2
  · intro hm hne r hr'
    rw [densKernel_eq_sum]
    apply List.sum_pos
    · intro x hx
      obtain ⟨md, hmem, rfl⟩ := List.mem_map.1 hx
      have h1 := kernelWidth_pos r200 md.2 hr (hd md hmem)
      have h2 := kTilde_pos r md.2 _ hr' (hd md hmem) h1
      have h3 := hm md hmem
      positivity
    · simpa using hne

example : ∫ r in Ioi (0 : ℝ), 4 * π * r ^ 2 * densKernel 2 [(3, 1), (4, 0.5)] r = 7 := by
  rw [(C77_total_mass 2 (by norm_num) [(3, 1), (4, 0.5)] (by
    intro md h
    simp only [List.mem_cons, List.not_mem_nil, or_false] at h
    rcases h with rfl | rfl <;> norm_num)).1]
  norm_num

end Verif.Binning
