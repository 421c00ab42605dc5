import Verif.Round.CentreProps

/-!
# Periodic unwrapping with rounding (C151)

* `respectPBCNoRef` of `cosmic_profiles/common/python_routines.py:497-528` (double precision)
* `CythonHelpers.respectPBCNoRef` of `cosmic_profiles/cython_helpers/helper_class.pyx:166-199`, where the box length and the distances are kept in
  single precision (`float`)
-/

namespace Verif.Round

variable (R : Rounding)

open Verif (Vec)

/-! ## Model -/

/-- One coordinate, python_routines.py:515-522: the distance from the reference is computed once. -/
noncomputable def unwrapOne (L ref x : ℝ) : ℝ :=
  let d := R.sub x ref
  let y := if d > R.div L 2 then R.sub x L else x
  if d < R.div (-L) 2 then R.add y L else y

/-- One coordinate of all particles, python_routines.py:510-526, possible results.  `chosen` are the coordinates of the particles drawn. -/
inductive Unwraps (L : ℝ) (chosen xs : List ℝ) : List ℝ → Prop
  | open (h : L = 0) : Unwraps L chosen xs xs
  | periodic (h : L ≠ 0) (s : ℝ) (hs : Sums R chosen s) :
      Unwraps L chosen xs (xs.map (unwrapOne R L (R.div s chosen.length)))

/-- `cython_abs`, helper_class.pyx:110-120: the argument is converted to single precision (`S`). -/
noncomputable def cyAbs (S : Rounding) (x : ℝ) : ℝ := if S.rnd x ≥ 0 then S.rnd x else -S.rnd x

/-- One round of the loop, helper_class.pyx:189-198, for the particle at `p` with first particle at `r`.  `l` is the box length in single precision.
The third test repeats the second coordinate, as in the code. -/
noncomputable def cyUnwrapOne (S : Rounding) (l : ℝ) (r p : Vec ℝ) : Vec ℝ :=
  let p1 : Vec ℝ := if cyAbs S (R.sub (r 0) (p 0)) > S.div l 2 then ![R.sub l (p 0), p 1, p 2] else p
  let p2 : Vec ℝ := if cyAbs S (R.sub (r 1) (p1 1)) > S.div l 2 then ![p1 0, R.sub l (p1 1), p1 2] else p1
  if cyAbs S (R.sub (r 1) (p2 1)) > S.div l 2 then ![p2 0, p2 1, R.sub l (p2 2)] else p2

/-- The loop from row `i` on (`fuel` rows), in place. -/
noncomputable def cyUnwrapLoop (S : Rounding) (l : ℝ) (xyz : List (Vec ℝ)) (i : Nat) : Nat → List (Vec ℝ)
  | 0 => xyz
  | fuel + 1 => match xyz[0]?, xyz[i]? with
    | some r, some p => cyUnwrapLoop S l (xyz.set i (cyUnwrapOne R S l r p)) (i + 1) fuel
    | _, _ => xyz

/-- `CythonHelpers.respectPBCNoRef(xyz, L)`: `L` is converted to single precision, helper_class.pyx:169. -/
noncomputable def cyUnwrap (S : Rounding) (L : ℝ) (xyz : List (Vec ℝ)) : List (Vec ℝ) :=
  if S.rnd L = 0 then xyz else cyUnwrapLoop R S (S.rnd L) xyz 0 xyz.length

/-! ## Proofs -/

theorem rnd_half {S : Rounding} (x : ℝ) : S.rnd (x / 2) = S.rnd x / 2 := by
  have := S.double (x / 2)
  rw [mul_div_cancel₀ x two_ne_zero] at this
  linarith

theorem rnd_le {x L : ℝ} (hL : R.Stored L) (h : x ≤ L / 2) : R.rnd x ≤ L / 2 := by
  have := R.mono h
  rwa [rnd_half, hL] at this

theorem le_rnd {x L : ℝ} (hL : R.Stored L) (h : -L / 2 ≤ x) : -L / 2 ≤ R.rnd x := by
  have := R.mono h
  rwa [rnd_half, R.odd, hL] at this

/-- C151 (double precision). An object that does not reach over half the box, by a margin of rounding-error size, is left alone, bit for bit. -/
theorem C151_left_alone (L : ℝ) (hL : R.Stored L) (chosen xs : List ℝ) (hne : chosen ≠ [])
    (hch : ∀ x ∈ chosen, x ∈ xs) (lo hi X : ℝ) (hX : ∀ x ∈ xs, |x| ≤ X) (hb : ∀ x ∈ xs, lo ≤ x ∧ x ≤ hi)
    (hroom : hi - lo + ((1 - R.u)⁻¹ ^ (chosen.length + 1) - 1) * X ≤ L / 2)
    (out : List ℝ) : Unwraps R L chosen xs out ↔ out = xs := by
  suffices key : ∀ out, Unwraps R L chosen xs out → out = xs by
    refine ⟨key out, ?_⟩
    rintro rfl
    rcases eq_or_ne L 0 with hL0 | hL0
    · exact .open hL0
    · obtain ⟨s, hs⟩ := sums_exists R chosen
      have h := Unwraps.periodic (R := R) (xs := out) hL0 s hs
      have e := key _ h
      rwa [e] at h
  intro out h
  cases h with
  | «open» h => rfl
  | periodic h s hs =>
    obtain ⟨h1, h2⟩ := average_near (R := R) hne hs (fun x hx => hb x (hch x hx)) (fun x hx => hX x (hch x hx))
    conv_rhs => rw [← List.map_id xs]
    apply List.map_congr_left
    intro x hx
    have hx' := hb x hx
    have e1 : R.div L 2 = L / 2 := by unfold Rounding.div; rw [rnd_half, hL]
    have e2 : R.div (-L) 2 = -L / 2 := by unfold Rounding.div; rw [rnd_half, R.odd, hL]
    have a1 : ¬ R.sub x (R.div s chosen.length) > R.div L 2 := by
      rw [e1, gt_iff_lt, not_lt]
      exact rnd_le R hL (by linarith)
    have a2 : ¬ R.sub x (R.div s chosen.length) < R.div (-L) 2 := by
      rw [e2, not_lt]
      exact le_rnd R hL (by linarith)
    unfold unwrapOne
    dsimp only
    rw [if_neg a1, if_neg a2]
    rfl

/-- C151 (double precision). Coordinates in the box: each is left alone or becomes a periodic image of itself up to the rounding of one addition, and in the
end is at most half a box from the reference, up to one unit of rounding error of the box length. -/
theorem C151_images (L : ℝ) (hpos : 0 < L) (hL : R.Stored L) (ref x : ℝ) (hr : 0 ≤ ref ∧ ref ≤ L) (hx : 0 ≤ x ∧ x ≤ L) :
    (unwrapOne R L ref x = x ∨ |unwrapOne R L ref x - (x - L)| ≤ R.u * L ∨ |unwrapOne R L ref x - (x + L)| ≤ R.u * (2 * L)) ∧
    |unwrapOne R L ref x - ref| ≤ L / 2 + R.u * (2 * L) := by
  have hu := R.u_nonneg
  have e1 : R.div L 2 = L / 2 := by unfold Rounding.div; rw [rnd_half, hL]
  have e2 : R.div (-L) 2 = -L / 2 := by unfold Rounding.div; rw [rnd_half, R.odd, hL]
  have hd := abs_le.1 (R.err (x - ref))
  have hxr : |x - ref| ≤ L := by rw [abs_le]; constructor <;> linarith [hr.1, hr.2, hx.1, hx.2]
  have hxu := mul_le_mul_of_nonneg_left hxr hu
  have huL : 0 ≤ R.u * L := mul_nonneg hu hpos.le
  unfold unwrapOne
  dsimp only
  rw [e1, e2]
  by_cases h1 : R.sub x ref > L / 2
  · have h2 : ¬ R.sub x ref < -L / 2 := by linarith
    rw [if_pos h1, if_neg h2]
    have h3 : L / 2 < x - ref := by
      by_contra h
      exact absurd (rnd_le R hL (not_lt.1 h)) (not_le.2 h1)
    have h4 := R.err (x - L)
    have h5 : |x - L| ≤ L := by rw [abs_le]; constructor <;> linarith [hx.1, hx.2]
    have h6 : |R.sub x L - (x - L)| ≤ R.u * L := h4.trans (mul_le_mul_of_nonneg_left h5 hu)
    refine ⟨.inr (.inl h6), ?_⟩
    rw [abs_le] at h6 ⊢
    constructor <;> linarith [h6.1, h6.2, hr.1, hx.2]
  · rw [if_neg h1]
    by_cases h2 : R.sub x ref < -L / 2
    · rw [if_pos h2]
      have h3 : x - ref < -L / 2 := by
        by_contra h
        exact absurd (le_rnd R hL (not_lt.1 h)) (not_le.2 h2)
      have h4 := R.err (x + L)
      have h5 : |x + L| ≤ 2 * L := by rw [abs_le]; constructor <;> linarith [hx.1, hx.2]
      have h6 : |R.add x L - (x + L)| ≤ R.u * (2 * L) := h4.trans (mul_le_mul_of_nonneg_left h5 hu)
      refine ⟨.inr (.inr h6), ?_⟩
      rw [abs_le] at h6 ⊢
      constructor <;> linarith [h6.1, h6.2, hr.2, hx.1]
    · rw [if_neg h2]
      refine ⟨.inl rfl, ?_⟩
      unfold Rounding.sub at h1 h2
      rw [abs_le]
      constructor <;> linarith [hd.1, hd.2, not_lt.1 h1, not_lt.1 h2]

theorem cyAbs_le {S : Rounding} {L d : ℝ} (hL : R.Stored L) (h : |d| ≤ L / 2) : cyAbs S (R.rnd d) ≤ S.div (S.rnd L) 2 := by
  have h1 := abs_le.1 h
  have h2 := rnd_le R hL h1.2
  have h3 := le_rnd R hL (show -L / 2 ≤ d by linarith [h1.1])
  have e : S.div (S.rnd L) 2 = S.rnd L / 2 := by unfold Rounding.div; rw [rnd_half, S.idem]
  rw [e]
  unfold cyAbs
  split
  · have := S.mono h2
    rwa [rnd_half] at this
  · have := S.mono h3
    rw [rnd_half, S.odd] at this
    linarith

/-- One round of the loop leaves alone what is within half a box of the first particle. -/
theorem cyUnwrapOne_self (S : Rounding) (L : ℝ) (hL : R.Stored L) (r p : Vec ℝ) (h : ∀ a, |r a - p a| ≤ L / 2) :
    cyUnwrapOne R S (S.rnd L) r p = p := by
  have n0 := not_lt.2 (cyAbs_le R (S := S) hL (h 0))
  have n1 := not_lt.2 (cyAbs_le R (S := S) hL (h 1))
  unfold cyUnwrapOne Rounding.sub
  dsimp only
  rw [if_neg n0, if_neg n1, if_neg n1]

theorem cyUnwrapLoop_self (S : Rounding) (L : ℝ) (hL : R.Stored L) (xyz : List (Vec ℝ))
    (h : ∀ r, xyz[0]? = some r → ∀ p ∈ xyz, ∀ a, |r a - p a| ≤ L / 2) (fuel i : Nat) : cyUnwrapLoop R S (S.rnd L) xyz i fuel = xyz := by
  induction fuel generalizing i with
  | zero => rfl
  | succ n ih =>
    unfold cyUnwrapLoop
    split
    · next r p hr hp =>
      rw [cyUnwrapOne_self R S L hL r p (h r hr p (List.mem_of_getElem? hp))]
      obtain ⟨hi, rfl⟩ := List.getElem?_eq_some_iff.1 hp
      rw [List.set_getElem_self]
      exact ih (i + 1)
    · rfl

/-- C151 (compiled helper). An object no particle of which is farther than half the box from the first one along any axis is left alone, bit for bit, although
the box length and the distances are rounded to another precision (`S`). -/
theorem C151_single_precision (S : Rounding) (L : ℝ) (hL : R.Stored L) (xyz : List (Vec ℝ))
    (h : ∀ r, xyz[0]? = some r → ∀ p ∈ xyz, ∀ a, |r a - p a| ≤ L / 2) : cyUnwrap R S L xyz = xyz := by
  unfold cyUnwrap
  split
  · rfl
  · exact cyUnwrapLoop_self R S L hL xyz h _ 0

/-- C151 (not periodic). With a box of length 0 nothing is moved, by either function, wherever the particles are. -/
theorem C151_open (S : Rounding) (chosen xs : List ℝ) (xyz : List (Vec ℝ)) :
    (∀ out, Unwraps R 0 chosen xs out ↔ out = xs) ∧ cyUnwrap R S 0 xyz = xyz := by
  constructor
  · intro out
    constructor
    · intro h
      cases h with
      | «open» h => rfl
      | periodic h s hs => exact absurd rfl h
    · rintro rfl
      exact .open rfl
  · have h0 : S.rnd 0 = 0 := by
      have := S.odd 0
      rw [neg_zero] at this
      linarith
    exact if_pos h0

theorem stored_sixteen : float64.Stored 16 := by
  have e1 : fl 53 (16 : ℝ) = 16 := by
    have := fl_eq (p := 53) (x := (16 : ℝ)) 4 (2 ^ 52) (by norm_num) (by norm_num) (by norm_num)
      (by rw [abs_lt]; constructor <;> norm_num)
    rw [this]; norm_num
  exact e1

/-- Non-vacuity of `C151_left_alone`: three particles in a box of length 16. -/
example (out : List ℝ) : Unwraps float64 16 [1, 3] [1, 2, 3] out ↔ out = [1, 2, 3] := by
  refine C151_left_alone float64 16 stored_sixteen [1, 3] [1, 2, 3] (by simp) (by simp) 1 3 3 ?_ ?_ ?_ out
  · intro x hx
    simp only [List.mem_cons, List.not_mem_nil, or_false] at hx
    rcases hx with rfl | rfl | rfl <;> norm_num
  · intro x hx
    simp only [List.mem_cons, List.not_mem_nil, or_false] at hx
    rcases hx with rfl | rfl | rfl <;> norm_num
  · have hu : float64.u = (1 / 2) ^ 53 := rfl
    have := gamma_le float64 3 (by rw [hu]; norm_num)
    simp only [List.length_cons, List.length_nil]
    have h2 : 2 * (3 : ℕ) * float64.u ≤ 1 := by rw [hu]; norm_num
    linarith

/-- A particle across the face comes to the image next to the others. -/
example : |unwrapOne float64 16 1 15 - 1| ≤ 16 / 2 + float64.u * (2 * 16) :=
  (C151_images float64 16 (by norm_num) stored_sixteen 1 15 (by norm_num) (by norm_num)).2

/-- Non-vacuity of `C151_single_precision`. -/
example : cyUnwrap float64 float32 16 [![1, 2, 3], ![5, 10, 0]] = [![1, 2, 3], ![5, 10, 0]] := by
  refine C151_single_precision float64 float32 16 stored_sixteen _ ?_
  intro r hr p hp a
  simp only [List.getElem?_cons_zero, Option.some.injEq] at hr
  subst hr
  simp only [List.mem_cons, List.not_mem_nil, or_false] at hp
  rcases hp with rfl | rfl <;> fin_cases a <;> norm_num

end Verif.Round
