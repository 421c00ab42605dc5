import Verif.Round.Props

/-!
# Rounding: the units in which data is kept (C139)
-/

namespace Verif.Round

open Verif.Units (Cfg)

variable (R : Rounding)

theorem rel_into (big h inU x : ℝ) (hh : 0 < h) (hbig : 0 < big) :
    Rel R 3 (R.mul x (R.div inU (R.div big h)) * (big / h)) (x * inU) := by
  have h1 : Rel R 1 (R.div big h) (big / h) := rel_rnd R _
  have h2 : Rel R 2 (R.div inU (R.div big h)) (inU / (big / h)) := by
    have := rel_round ((Rel.refl R 0 inU).div h1)
    exact this
  have h3 : Rel R 3 (R.mul x (R.div inU (R.div big h))) (x * (inU / (big / h))) := by
    have := rel_round ((Rel.refl R 0 x).mul h2)
    exact this
  have h4 := h3.mul (Rel.refl R 0 (big / h))
  have e : x * (inU / (big / h)) * (big / h) = x * inU := by
    have : (big / h) ≠ 0 := (div_pos hbig hh).ne'
    field_simp
  rw [e] at h4
  exact h4

/-- C139 (units inside). A length handed in is kept as a number of Mpc/h, one Mpc being 3.085678e24 cm, up to 6 rounding errors. -/
theorem C139_inside_lengths (hu : R.u ≤ 1 / 6) (c : Cfg ℝ) (hh : 0 < c.h) (x : ℝ) :
    |lengthIn R c x * (3.085678e24 / c.h) - x * c.inL| ≤ 6 * R.u * |x * c.inL| := by
  have h := rel_into R (3085678 * 10 ^ 18) c.h c.inL x hh (by norm_num)
  have e : (3.085678e24 : ℝ) = 3085678 * 10 ^ 18 := by norm_num
  rw [e]
  exact (h.err' (by push_cast; linarith)).trans_eq (by push_cast; ring)

/-- C139 (units inside). A mass handed in is kept as a number of 10^10 solar masses/h, one solar mass being 1.989e33 g, up to 6 rounding errors. -/
theorem C139_inside_masses (hu : R.u ≤ 1 / 6) (c : Cfg ℝ) (hh : 0 < c.h) (x : ℝ) :
    |massIn R c x * (10 ^ 10 * 1.989e33 / c.h) - x * c.inM| ≤ 6 * R.u * |x * c.inM| := by
  have h := rel_into R (1989 * 10 ^ 40) c.h c.inM x hh (by norm_num)
  have e : (10 ^ 10 * 1.989e33 : ℝ) = 1989 * 10 ^ 40 := by norm_num
  rw [e]
  exact (h.err' (by push_cast; linarith)).trans_eq (by push_cast; ring)

/-- A mass of 3 units of 10^10 solar masses/h in double precision: 3 up to one part in 10^15. -/
example (c : Cfg ℝ) (hh : 0 < c.h) (hM : c.inM = 10 ^ 10 * 1.989e33 / c.h) : |massIn float64 c 3 - 3| ≤ 3 / 10 ^ 15 := by
  have h := C139_inside_masses float64 (by unfold float64 binary; norm_num) c hh 3
  have hp : 0 < c.inM := by rw [hM]; positivity
  rw [← hM, ← sub_mul, abs_mul, abs_mul, abs_of_pos hp, ← mul_assoc] at h
  have h2 := le_of_mul_le_mul_right h hp
  refine h2.trans ?_
  unfold float64 binary
  norm_num

end Verif.Round
