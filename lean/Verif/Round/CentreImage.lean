import Verif.Round.CentreProps

/-!
# Rounding: centres brought back into the box are periodic images (C144)
-/

namespace Verif.Round

variable (R : Rounding)

/-- C144. A coordinate in the box is kept bit for bit; one beyond the box or below 0 is moved by one box length, up to one rounding. -/
theorem C144_image (L x : ℝ) (hL : 0 < L) :
    (0 ≤ x → x < L → recentre R L x = x) ∧
    (L ≤ x → |recentre R L x - (x - L)| ≤ R.u * |x - L|) ∧
    (x < 0 → |recentre R L x - (x + L)| ≤ R.u * |x + L|) := by
  refine ⟨fun h0 h1 => ?_, fun h => ?_, fun h => ?_⟩
  · unfold recentre
    simp only [if_neg (not_le.2 h1), if_neg (not_lt.2 h0)]
  · have h0 : ¬R.sub x L < 0 := not_lt.2 (rnd_nonneg R (sub_nonneg.2 h))
    have e : recentre R L x = R.rnd (x - L) := by
      unfold recentre
      simp only [if_pos h, if_neg h0]
      rfl
    rw [e]
    exact R.err _
  · have e : recentre R L x = R.rnd (x + L) := by
      unfold recentre
      simp only [if_neg (not_le.2 (h.trans hL)), if_pos h]
      rfl
    rw [e]
    exact R.err _

/-- In a box of length 16, a centre at 17 is moved to 1 up to rounding in double precision. -/
example : |recentre float64 16 17 - (17 - 16)| ≤ float64.u * |(17 : ℝ) - 16| :=
  (C144_image float64 16 17 (by norm_num)).2.1 (by norm_num)

end Verif.Round
