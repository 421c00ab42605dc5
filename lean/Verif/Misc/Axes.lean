import Mathlib.Data.Real.Basic
import Mathlib.Data.Fin.VecNotation
import Mathlib.Data.Fintype.Basic
import Mathlib.Tactic.FinCases
import Mathlib.Tactic.NormNum
import Mathlib.Tactic.Linarith
import Mathlib.Tactic.Ring

/-!
# Axes of three-dimensional pictures (C128)

* `set_axes_equal`, `_set_axes_radius` (`cosmic_profiles/common/python_routines.py:239-260`)
-/

namespace Verif.Misc

/-! ## Model -/

/-- Limits of the three axes, `get_xlim3d()`, `get_ylim3d()`, `get_zlim3d()`. -/
abbrev Limits := Fin 3 → ℝ × ℝ

/-- `origin = np.mean(limits, axis=1)`, python_routines.py:251. -/
noncomputable def axOrigin (l : Limits) (i : Fin 3) : ℝ := ((l i).1 + (l i).2) / 2

/-- `radius = 0.5 * np.max(np.abs(limits[:, 1] - limits[:, 0]))`, python_routines.py:252. -/
noncomputable def axRadius (l : Limits) : ℝ :=
  (1 / 2) * max (max |(l 0).2 - (l 0).1| |(l 1).2 - (l 1).1|) |(l 2).2 - (l 2).1|

/-- `set_axes_equal` with `_set_axes_radius`, python_routines.py:239-260: the limits after the call.  Simplification: matplotlib
takes the limits it is given (it widens limits which coincide: the case of three axes of length zero). -/
noncomputable def setAxesEqual (l : Limits) : Limits := fun i =>
  (axOrigin l i - axRadius l, axOrigin l i + axRadius l)

/-! ## Specification -/

/-- The limits span the same length along all axes. -/
def SameScale (l : Limits) : Prop := ∃ c, ∀ i, (l i).2 - (l i).1 = c

/-- What is between the limits `a` is between the limits `b`; limits may be given in either order. -/
def Shows (b a : Limits) : Prop :=
  ∀ i x, min (a i).1 (a i).2 ≤ x → x ≤ max (a i).1 (a i).2 → (b i).1 ≤ x ∧ x ≤ (b i).2

/-! ## Proofs -/

theorem abs_le_radius (l : Limits) (i : Fin 3) : |(l i).2 - (l i).1| ≤ 2 * axRadius l := by
  unfold axRadius
  have h0 := le_max_left |(l 0).2 - (l 0).1| |(l 1).2 - (l 1).1|
  have h1 := le_max_right |(l 0).2 - (l 0).1| |(l 1).2 - (l 1).1|
  have h2 := le_max_left (max |(l 0).2 - (l 0).1| |(l 1).2 - (l 1).1|) |(l 2).2 - (l 2).1|
  have h3 := le_max_right (max |(l 0).2 - (l 0).1| |(l 1).2 - (l 1).1|) |(l 2).2 - (l 2).1|
  fin_cases i <;> simp only [Fin.zero_eta, Fin.mk_one, Fin.reduceFinMk] <;> linarith

theorem radius_attained (l : Limits) : ∃ i, |(l i).2 - (l i).1| = 2 * axRadius l := by
  unfold axRadius
  rcases max_choice (max |(l 0).2 - (l 0).1| |(l 1).2 - (l 1).1|) |(l 2).2 - (l 2).1| with h | h
  · rw [h]
    rcases max_choice |(l 0).2 - (l 0).1| |(l 1).2 - (l 1).1| with h' | h'
    · exact ⟨0, by rw [h']; ring⟩
    · exact ⟨1, by rw [h']; ring⟩
  · exact ⟨2, by rw [h]; ring⟩

theorem shows_setAxesEqual (l : Limits) : Shows (setAxesEqual l) l := by
  intro i x h1 h2
  have h := abs_le_radius l i
  have hmm : max (l i).1 (l i).2 - min (l i).1 (l i).2 = |(l i).2 - (l i).1| := max_sub_min_eq_abs _ _
  have hs : max (l i).1 (l i).2 + min (l i).1 (l i).2 = (l i).1 + (l i).2 := max_add_min _ _
  unfold setAxesEqual axOrigin
  constructor <;> dsimp only <;> linarith

/-- C128. After `set_axes_equal` a three-dimensional picture has the same scale along all axes, its centre is where it was, all that
was shown is still shown, and no picture with the same scale along all axes showing all that was shown is smaller along any axis.
Applying it again changes nothing. -/
theorem C128_axes (l : Limits) :
    SameScale (setAxesEqual l) ∧ (∀ i, ((setAxesEqual l i).1 + (setAxesEqual l i).2) / 2 = ((l i).1 + (l i).2) / 2) ∧
    Shows (setAxesEqual l) l ∧
    (∀ b, SameScale b → Shows b l → ∀ i, (setAxesEqual l i).2 - (setAxesEqual l i).1 ≤ (b i).2 - (b i).1) ∧
    setAxesEqual (setAxesEqual l) = setAxesEqual l := by
  have hr : 0 ≤ axRadius l := by
    have := abs_le_radius l 0
    have := abs_nonneg ((l 0).2 - (l 0).1)
    linarith
  refine ⟨⟨2 * axRadius l, fun i => ?_⟩, fun i => ?_, shows_setAxesEqual l, ?_, ?_⟩
  · unfold setAxesEqual
    dsimp only
    ring
  · unfold setAxesEqual axOrigin
    dsimp only
    ring
  · rintro b ⟨c, hc⟩ hb i
    obtain ⟨j, hj⟩ := radius_attained l
    have h1 := (hb j (min (l j).1 (l j).2) le_rfl (min_le_max)).1
    have h2 := (hb j (max (l j).1 (l j).2) min_le_max le_rfl).2
    have hmm : max (l j).1 (l j).2 - min (l j).1 (l j).2 = |(l j).2 - (l j).1| := max_sub_min_eq_abs _ _
    have h3 := hc j
    rw [hc i]
    unfold setAxesEqual
    dsimp only
    linarith
  · have hlen : ∀ i, (setAxesEqual l i).2 - (setAxesEqual l i).1 = 2 * axRadius l := by
      intro i
      unfold setAxesEqual
      dsimp only
      ring
    have hrad : axRadius (setAxesEqual l) = axRadius l := by
      conv_lhs => unfold axRadius
      rw [hlen, hlen, hlen, max_self, max_self, abs_of_nonneg (by linarith)]
      ring
    funext i
    have ho : axOrigin (setAxesEqual l) i = axOrigin l i := by
      unfold axOrigin setAxesEqual axOrigin
      dsimp only
      ring
    show (axOrigin (setAxesEqual l) i - axRadius (setAxesEqual l), axOrigin (setAxesEqual l) i + axRadius (setAxesEqual l)) = _
    rw [hrad, ho]
    rfl

/-- A flat picture: limits 0…4, 0…2 and 1…1 become 0…4, -1…3 and -1…3. -/
example : setAxesEqual ![(0, 4), (0, 2), (1, 1)] = ![(0, 4), (-1, 3), (-1, 3)] := by
  have hr : axRadius ![(0, 4), (0, 2), (1, 1)] = 2 := by
    unfold axRadius
    simp
    norm_num
  funext i
  unfold setAxesEqual
  rw [hr]
  unfold axOrigin
  fin_cases i <;> simp <;> norm_num

end Verif.Misc
