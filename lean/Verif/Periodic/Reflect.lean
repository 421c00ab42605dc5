import Verif.Periodic.Props

/-!
# Unwrapping with respect to the first particle (C130)

* `respectPBC` (`cosmic_profiles/common/cosmo_tools.py:36-57`)
-/

set_option linter.unusedSectionVars false

namespace Verif.Periodic

variable {K : Type} [Field K] [LinearOrder K] [IsStrictOrderedRing K]

/-! ## Model -/

/-- One coordinate: `x[dist > L_BOX/2] = L_BOX - x[dist > L_BOX/2]`, cosmo_tools.py:51-56. -/
def reflectAxis (L r x : K) : K := if |r - x| > L / 2 then L - x else x

/-- `respectPBC`, cosmo_tools.py:36-57; `none`: `IndexError` without particles.  The three axes are treated alike, with the
coordinates of the first particle as reference. -/
def respectPBC (xyz : List (Vec K)) (L : K) : Option (List (Vec K)) :=
  match xyz with
  | [] => none
  | r :: rest => some ((r :: rest).map fun p i => reflectAxis L (r i) (p i))

/-! ## Proofs -/

/-- C130 (part). In a box of length `L > 0` each particle ends up within `L/2` of the first one along every axis, inside the box; the
first particle stays where it is, and so does every coordinate within `L/2` of that of the first particle.  Missing: that the result
consists of periodic images, which is false (`C130_mirrored_refuted`). -/
theorem C130_near_partial (r : Vec K) (rest : List (Vec K)) (L : K) (hL : 0 < L) (hbox : InBox L (r :: rest)) :
    ∃ out, respectPBC (r :: rest) L = some (r :: out) ∧
      List.Forall₂ (fun x y => ∀ i, |r i - y i| ≤ L / 2 ∧ 0 ≤ y i ∧ y i ≤ L ∧ (|r i - x i| ≤ L / 2 → y i = x i)) rest out := by
  refine ⟨rest.map fun p i => reflectAxis L (r i) (p i), ?_, ?_⟩
  · show some _ = some _
    rw [List.map_cons]
    congr 2
    funext i
    unfold reflectAxis
    rw [sub_self, abs_zero, if_neg (by linarith)]
  · rw [List.forall₂_map_right_iff, List.forall₂_same]
    intro x hx i
    obtain ⟨r0, r1⟩ := hbox r (by simp) i
    obtain ⟨x0, x1⟩ := hbox x (List.mem_cons_of_mem _ hx) i
    unfold reflectAxis
    dsimp only
    by_cases h : |r i - x i| > L / 2
    · rw [if_pos h]
      refine ⟨?_, by linarith, by linarith, fun h' => absurd h (not_lt.2 h')⟩
      rcases lt_abs.1 h with h | h <;> rw [abs_le] <;> constructor <;> linarith
    · rw [if_neg h]
      exact ⟨not_lt.1 h, x0, x1.le, fun _ => rfl⟩

/-- C130 is false: each coordinate which is moved at all, unless it is 0, is moved to a place which is not a periodic image of it. -/
theorem C130_mirrored_refuted (L r x : K) (hr : 0 ≤ r ∧ r < L) (hx : 0 < x ∧ x < L) (hmoved : |r - x| > L / 2) :
    ¬ IsImage L x (reflectAxis L r x) := by
  unfold reflectAxis IsImage
  rw [if_pos hmoved]
  rintro ⟨k, hk⟩
  have hL : 0 < L := lt_trans hx.1 hx.2
  have h2 : (1 - (k : K)) * L = 2 * x := by linear_combination hk
  have hlo : (0 : K) < (1 - (k : K)) := by
    by_contra h
    have : (1 - (k : K)) * L ≤ 0 := mul_nonpos_of_nonpos_of_nonneg (not_lt.1 h) hL.le
    linarith
  have hhi : (1 - (k : K)) < 2 := by
    by_contra h
    have : 2 * L ≤ (1 - (k : K)) * L := mul_le_mul_of_nonneg_right (not_lt.1 h) hL.le
    linarith
  have hk0 : k = 0 := by
    have a : ((0 : ℤ) : K) < ((1 - k : ℤ) : K) := by push_cast; exact hlo
    have b : ((1 - k : ℤ) : K) < ((2 : ℤ) : K) := by push_cast; exact hhi
    have a' := Int.cast_lt.1 a
    have b' := Int.cast_lt.1 b
    omega
  subst hk0
  have hxL : x = L / 2 := by
    have : L = 2 * x := by simpa using h2
    linarith
  rcases lt_abs.1 hmoved with h | h <;> linarith [hr.1, hr.2]

/-- Two particles, 0.2 apart across the face of a box of length 1: the second one ends up on the first one, at a distance of 0 instead
of 0.2. -/
example : respectPBC [![9 / 10, 1 / 2, 1 / 2], ![1 / 10, 1 / 2, (1 / 2 : ℚ)]] 1 =
    some [![9 / 10, 1 / 2, 1 / 2], ![9 / 10, 1 / 2, 1 / 2]] ∧ ¬ IsImage 1 (1 / 10 : ℚ) (9 / 10) := by
  constructor
  · simp only [respectPBC, List.map_cons, List.map_nil, Option.some.injEq, List.cons.injEq, and_true]
    constructor <;> funext i <;> fin_cases i <;> norm_num [reflectAxis, abs_of_pos]
  · have := C130_mirrored_refuted (1 : ℚ) (9 / 10) (1 / 10) (by norm_num) (by norm_num) (by norm_num [abs_of_pos])
    rwa [show reflectAxis (1 : ℚ) (9 / 10) (1 / 10) = 9 / 10 by norm_num [reflectAxis, abs_of_pos]] at this

end Verif.Periodic
