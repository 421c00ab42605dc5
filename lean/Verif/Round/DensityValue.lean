import Verif.Round.Order

/-!
# Rounding: densities against the exact volume (C143)
-/

namespace Verif.Round

open Verif (Vec)

variable (R : Rounding)

/-- C143. An entry of the profile is the mass of the particles in the shell divided by the exact volume of the shell, up to rounding; for thin shells the
error of the volume is amplified by the ratio of the sum to the difference of the volumes of the two spheres (`κ`). -/
theorem C143_value_partial (pi r200 e e' κ : ℝ) (hpi : |pi - Real.pi| ≤ R.u * Real.pi) (he : 0 ≤ e) (hee : e < e') (hr : 0 < r200)
    (hκ : e' ^ 3 + e ^ 3 = κ * (e' ^ 3 - e ^ 3)) (hu : 18 * R.u * κ ≤ 1 / 2) (center : Vec ℝ) (ps : List (Vec ℝ × ℝ)) (hm : ∀ p ∈ ps, 0 ≤ p.2)
    (hn : (ps.length + 1) * R.u ≤ 1 / 2) :
    |density R pi r200 e e' center ps * (4 / 3 * Real.pi * ((e' * r200) ^ 3 - (e * r200) ^ 3)) - shellMass R r200 e e' center ps| ≤
      (2 * (ps.length + 1) + 72 * κ) * R.u * shellMass R r200 e e' center ps := by
  classical
  have hpi0 := Real.pi_pos
  have hu0 := R.u_nonneg
  have he' : 0 < e' := he.trans_lt hee
  have hdiff : 0 < e' ^ 3 - e ^ 3 := sub_pos.2 (pow_lt_pow_left₀ hee he (by norm_num))
  have hκ1 : 1 ≤ κ := by
    have h3 : 0 ≤ e ^ 3 := by positivity
    by_contra h
    have := mul_lt_mul_of_pos_right (not_le.1 h) hdiff
    linarith
  have hu18 : R.u ≤ 1 / 18 := by nlinarith
  set Vx := 4 / 3 * Real.pi * ((e' * r200) ^ 3 - (e * r200) ^ 3) with hVx
  have hVx0 : 0 < Vx := by
    have : (e' * r200) ^ 3 - (e * r200) ^ 3 = (e' ^ 3 - e ^ 3) * r200 ^ 3 := by ring
    rw [hVx, this]
    positivity
  have hvol := C143_volume_partial R pi r200 e e' hpi he he'.le hr.le hu18
  have hsum : 4 / 3 * Real.pi * ((e' * r200) ^ 3 + (e * r200) ^ 3) = κ * Vx := by
    rw [hVx]
    linear_combination (4 / 3 * Real.pi * r200 ^ 3) * hκ
  rw [hsum, ← hVx] at hvol
  set V := volume R pi r200 e e' with hV
  have hb : 18 * R.u * (κ * Vx) ≤ Vx / 2 := by nlinarith
  have hvol' := abs_le.1 hvol
  have hVlow : Vx / 2 ≤ V := by linarith [hvol'.1]
  have hV0 : 0 < V := by linarith
  obtain ⟨hd0, hd⟩ := C143_density_partial R pi r200 e e' center ps hm hV0 hn
  rw [← hV] at hd
  set d := density R pi r200 e e' center ps
  set M := shellMass R r200 e e' center ps with hM
  have hM0 : 0 ≤ M := by
    rw [hM]
    unfold shellMass
    apply List.sum_nonneg
    intro x hx
    obtain ⟨p, hp, rfl⟩ := List.mem_map.1 hx
    exact hm p (List.mem_of_mem_filter hp)
  have h1 : 2 * (ps.length + 1) * R.u * M ≤ M := by
    have := mul_le_mul_of_nonneg_right hn hM0
    linarith
  have hdV : d * V ≤ 2 * M := by linarith [(abs_le.1 hd).2]
  have hdVx : d * Vx ≤ 4 * M := by
    have := mul_le_mul_of_nonneg_left hVlow hd0
    linarith
  have h2 : |d * (Vx - V)| ≤ 72 * κ * R.u * M := by
    rw [abs_mul, abs_of_nonneg hd0, abs_sub_comm]
    calc d * |V - Vx| ≤ d * (18 * R.u * (κ * Vx)) := mul_le_mul_of_nonneg_left hvol hd0
      _ = 18 * R.u * κ * (d * Vx) := by ring
      _ ≤ 18 * R.u * κ * (4 * M) := mul_le_mul_of_nonneg_left hdVx (by positivity)
      _ = _ := by ring
  calc |d * Vx - M| = |(d * V - M) + d * (Vx - V)| := by congr 1; ring
    _ ≤ |d * V - M| + |d * (Vx - V)| := abs_add_le _ _
    _ ≤ 2 * (ps.length + 1) * R.u * M + 72 * κ * R.u * M := add_le_add hd h2
    _ = _ := by ring

/-- The ball of radius R200 = 1 in double precision (κ = 1), with any particles, fewer than a thousand million. -/
example (pi : ℝ) (hpi : |pi - Real.pi| ≤ float64.u * Real.pi) (ps : List (Vec ℝ × ℝ)) (hm : ∀ p ∈ ps, 0 ≤ p.2) (hn : ps.length ≤ 10 ^ 9) :
    |density float64 pi 1 0 1 ![0, 0, 0] ps * (4 / 3 * Real.pi * ((1 * 1) ^ 3 - (0 * 1) ^ 3)) - shellMass float64 1 0 1 ![0, 0, 0] ps| ≤
      (2 * (ps.length + 1) + 72 * 1) * float64.u * shellMass float64 1 0 1 ![0, 0, 0] ps := by
  have hl : (ps.length : ℝ) ≤ 10 ^ 9 := by exact_mod_cast hn
  refine C143_value_partial float64 pi 1 0 1 1 hpi le_rfl one_pos one_pos (by norm_num) ?_ ![0, 0, 0] ps hm ?_
  · rw [show float64.u = (1 / 2) ^ 53 from rfl]; norm_num
  · rw [show float64.u = (1 / 2) ^ 53 from rfl]
    nlinarith

end Verif.Round
