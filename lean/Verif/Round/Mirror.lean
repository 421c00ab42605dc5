import Verif.Round.Unwrap
import Verif.Round.WholeShape

/-!
# Rounding: what the compiled helper does to particles across a face (C151)
-/

namespace Verif.Round

open Verif (Vec)

variable (R : Rounding)

theorem abs_rnd_ge (x : ℝ) : (1 - R.u) * |x| ≤ |R.rnd x| := by
  obtain ⟨t, e, h1, -⟩ := rel_rnd R x
  rw [pow_one] at h1
  rw [e, abs_mul, mul_comm, abs_of_nonneg ((base_pos R).le.trans h1)]
  exact mul_le_mul_of_nonneg_left h1 (abs_nonneg x)

theorem cyAbs_eq (S : Rounding) (x : ℝ) : cyAbs S x = |S.rnd x| := by
  unfold cyAbs
  split
  · next h => exact (abs_of_nonneg h).symm
  · next h => exact (abs_of_nonpos (not_le.1 h).le).symm

theorem half_lt_cyAbs (S : Rounding) {L d : ℝ} (hL : 0 < L) (h : L / 2 < (1 - S.u) ^ 2 * (1 - R.u) * |d|) :
    cyAbs S (R.rnd d) > S.div (S.rnd L) 2 := by
  have e : S.div (S.rnd L) 2 = S.rnd L / 2 := by unfold Rounding.div; rw [rnd_half, S.idem]
  have hS := base_pos S
  have h1 : (1 - S.u) * ((1 - R.u) * |d|) ≤ |S.rnd (R.rnd d)| :=
    (mul_le_mul_of_nonneg_left (abs_rnd_ge R d) hS.le).trans (abs_rnd_ge S _)
  have h2 : S.rnd L ≤ w S * L := by simpa using (rel_rnd S L).le hL.le
  have hw : w S * (1 - S.u) = 1 := inv_mul_cancel₀ hS.ne'
  have h3 := mul_lt_mul_of_pos_left h (w_pos S)
  rw [cyAbs_eq, e]
  have h4 : w S * ((1 - S.u) ^ 2 * (1 - R.u) * |d|) = (1 - S.u) * ((1 - R.u) * |d|) := by
    linear_combination ((1 - S.u) * (1 - R.u) * |d|) * hw
  rw [h4] at h3
  linarith

/-- C151 (compiled helper, across a face). In an object of two particles, the second of which is clearly farther than half a box from
the first along the first axis and not along the second, the first coordinate is replaced by the box length (in the precision `S`)
minus the coordinate, rounded once; the others are kept bit for bit, however far the third ones are apart. -/
theorem C151_mirrored (S : Rounding) (L : ℝ) (hpos : 0 < L) (hL : R.Stored L) (r p : Vec ℝ)
    (h0 : L / 2 < (1 - S.u) ^ 2 * (1 - R.u) * |r 0 - p 0|) (h1 : |r 1 - p 1| ≤ L / 2) :
    cyUnwrap R S L [r, p] = [r, ![R.rnd (S.rnd L - p 0), p 1, p 2]] := by
  have hne : S.rnd L ≠ 0 := ((rel_rnd S L).pos hpos).ne'
  have hr : cyUnwrapOne R S (S.rnd L) r r = r :=
    cyUnwrapOne_self R S L hL r r fun a => by rw [sub_self, abs_zero]; linarith
  have hp : cyUnwrapOne R S (S.rnd L) r p = ![R.rnd (S.rnd L - p 0), p 1, p 2] := by
    have n1 := not_lt.2 (cyAbs_le R (S := S) hL h1)
    unfold cyUnwrapOne Rounding.sub
    dsimp only
    rw [if_pos (half_lt_cyAbs R S hpos h0)]
    set v : Vec ℝ := ![R.rnd (S.rnd L - p 0), p 1, p 2] with hv
    have e1 : v 1 = p 1 := rfl
    have n2 : ¬cyAbs S (R.rnd (r 1 - v 1)) > S.div (S.rnd L) 2 := by rw [e1]; exact n1
    rw [if_neg n2, if_neg n2]
  unfold cyUnwrap
  rw [if_neg hne]
  simp only [List.length_cons, List.length_nil, cyUnwrapLoop, List.getElem?_cons_zero, List.getElem?_cons_succ, List.set_cons_zero,
    List.set_cons_succ, hr, hp, Nat.zero_add]

/-- In a box of length 16 the particle at 15 seen from 1 is mirrored to 1, although it is next to the face at −1. -/
example : cyUnwrap float64 float32 16 [![1, 2, 3], ![15, 2, 14]] = [![1, 2, 3], ![float64.rnd (float32.rnd 16 - 15), 2, 14]] := by
  refine C151_mirrored float64 float32 16 (by norm_num) stored_sixteen _ _ ?_ ?_
  · change (16 : ℝ) / 2 < (1 - float32.u) ^ 2 * (1 - float64.u) * |(1 : ℝ) - 15|
    rw [show float64.u = (1 / 2) ^ 53 from rfl, show float32.u = (1 / 2) ^ 24 from rfl]
    norm_num
  · change |(2 : ℝ) - 2| ≤ 16 / 2
    norm_num

end Verif.Round
