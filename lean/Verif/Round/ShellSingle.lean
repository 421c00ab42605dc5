import Verif.Round.Entry
import Verif.Round.Mirror

/-!
# Rounding: shells with R200 in single precision (C143)
-/

namespace Verif.Round

open Verif (Vec)

variable (R : Rounding)

/-- C143, with R200 handed on in another precision (`S`), as the code does. A particle is counted in the shell its distance is in if it is away from
the edges by more than one rounding error of that precision and four of the other, and never if it is outside by more than that. -/
theorem C143_single_precision_partial (S : Rounding) (hu : 4 * R.u < 1) (r200 e e' : ℝ) (hr : 0 ≤ r200) (he : 0 ≤ e) (he' : 0 ≤ e') (c x : Vec ℝ) :
    (e * r200 ≤ (1 - S.u) * (1 - 4 * R.u) * √((c 0 - x 0) ^ 2 + (c 1 - x 1) ^ 2 + (c 2 - x 2) ^ 2) →
      √((c 0 - x 0) ^ 2 + (c 1 - x 1) ^ 2 + (c 2 - x 2) ^ 2) < (1 - S.u) * (1 - 4 * R.u) * (e' * r200) →
      InShell R (S.rnd r200) (distSq R c x) e e') ∧
    (InShell R (S.rnd r200) (distSq R c x) e e' →
      (1 - S.u) * (1 - 4 * R.u) * (e * r200) ≤ √((c 0 - x 0) ^ 2 + (c 1 - x 1) ^ 2 + (c 2 - x 2) ^ 2) ∧
      (1 - S.u) * (1 - 4 * R.u) * √((c 0 - x 0) ^ 2 + (c 1 - x 1) ^ 2 + (c 2 - x 2) ^ 2) < e' * r200) := by
  have hS := base_pos S
  have hq : 0 < 1 - 4 * R.u := by linarith
  have h0 : 0 ≤ S.rnd r200 := rnd_nonneg S hr
  have hw : w S * (1 - S.u) = 1 := inv_mul_cancel₀ hS.ne'
  have up : (1 - S.u) * S.rnd r200 ≤ r200 := by
    have h := mul_le_mul_of_nonneg_left (show S.rnd r200 ≤ w S * r200 by simpa using (rel_rnd S r200).le hr) hS.le
    have e : (1 - S.u) * (w S * r200) = r200 := by linear_combination r200 * hw
    linarith
  have lo : (1 - S.u) * r200 ≤ S.rnd r200 := by
    have h := abs_rnd_ge S r200
    rwa [abs_of_nonneg hr, abs_of_nonneg h0] at h
  obtain ⟨h1, h2⟩ := C143_right_shell R (S.rnd r200) e e' h0 he he' c x
  set D := √((c 0 - x 0) ^ 2 + (c 1 - x 1) ^ 2 + (c 2 - x 2) ^ 2)
  refine ⟨fun ha hb => h1 ?_ ?_, fun h => ?_⟩
  · have h3 := mul_le_mul_of_nonneg_left up he
    refine le_of_mul_le_mul_left ?_ hS
    linarith [show (1 - S.u) * (e * S.rnd r200) = e * ((1 - S.u) * S.rnd r200) by ring,
      show (1 - S.u) * ((1 - 4 * R.u) * D) = (1 - S.u) * (1 - 4 * R.u) * D by ring]
  · have h3 := mul_le_mul_of_nonneg_left (mul_le_mul_of_nonneg_left lo he') hq.le
    linarith [show (1 - 4 * R.u) * (e' * ((1 - S.u) * r200)) = (1 - S.u) * (1 - 4 * R.u) * (e' * r200) by ring]
  · obtain ⟨h3, h4⟩ := h2 h
    constructor
    · have h5 := mul_le_mul_of_nonneg_left (mul_le_mul_of_nonneg_left lo he) hq.le
      linarith [show (1 - 4 * R.u) * (e * ((1 - S.u) * r200)) = (1 - S.u) * (1 - 4 * R.u) * (e * r200) by ring]
    · have h5 := mul_lt_mul_of_pos_left h4 hS
      have h6 := mul_le_mul_of_nonneg_left up he'
      linarith [show (1 - S.u) * (e' * S.rnd r200) = e' * ((1 - S.u) * S.rnd r200) by ring,
        show (1 - S.u) * ((1 - 4 * R.u) * D) = (1 - S.u) * (1 - 4 * R.u) * D by ring]

/-- A particle at distance 3 is counted between 2 and 4 also if R200 = 1.1 is rounded to single precision. -/
example : InShell float64 (float32.rnd 1.1) (distSq float64 ![0, 0, 0] ![1, 2, 2]) 2 4 := by
  have hu : float64.u ≤ 1 / 1000 := float64_u_small
  have hs : float32.u ≤ 1 / 1000 := by rw [show float32.u = (1 / 2) ^ 24 from rfl]; norm_num
  have hu0 := float64.u_nonneg
  have hs0 := float32.u_nonneg
  have d1 : √(((![0, 0, 0] : Vec ℝ) 0 - (![1, 2, 2] : Vec ℝ) 0) ^ 2 + ((![0, 0, 0] : Vec ℝ) 1 - (![1, 2, 2] : Vec ℝ) 1) ^ 2 +
      ((![0, 0, 0] : Vec ℝ) 2 - (![1, 2, 2] : Vec ℝ) 2) ^ 2) = 3 := by
    rw [show (((![0, 0, 0] : Vec ℝ) 0 - (![1, 2, 2] : Vec ℝ) 0) ^ 2 + ((![0, 0, 0] : Vec ℝ) 1 - (![1, 2, 2] : Vec ℝ) 1) ^ 2 +
      ((![0, 0, 0] : Vec ℝ) 2 - (![1, 2, 2] : Vec ℝ) 2) ^ 2) = 3 ^ 2 from
      show ((0 : ℝ) - 1) ^ 2 + (0 - 2) ^ 2 + (0 - 2) ^ 2 = 3 ^ 2 by norm_num]
    exact Real.sqrt_sq (by norm_num)
  have hprod : (99 / 100 : ℝ) ≤ (1 - float32.u) * (1 - 4 * float64.u) := by nlinarith
  refine (C143_single_precision_partial float64 float32 (by linarith) 1.1 2 4 (by norm_num) (by norm_num) (by norm_num) ![0, 0, 0] ![1, 2, 2]).1 ?_ ?_ <;>
    rw [d1] <;> norm_num <;> linarith

end Verif.Round
