import Verif.Api.Shapes
import Verif.Stats.EpsProps

/-!
# What a complex ellipticity is (C43)
-/

namespace Verif.Api

open Verif.Stats Verif.Periodic
open Verif (Vec Particle)

/-! ## Specification -/

/-- The particles of an object with their positions unwrapped. -/
noncomputable def unwrappedParticles (choose : Nat → List Nat) (L : ℝ) (ps : List (Particle ℝ)) : List (Particle ℝ) :=
  List.zipWith (fun x p => (⟨x, p.mass⟩ : Particle ℝ)) (respectPBCNoRef (choose ps.length) (ps.map fun p => p.pos) L) ps

/-- Second mass moment about `c`. -/
noncomputable def secondMoment (c : Vec ℝ) (ps : List (Particle ℝ)) (i j : Fin 3) : ℝ :=
  (ps.map fun p => p.mass * ((p.pos i - c i) * (p.pos j - c j))).sum

/-! ## Proof -/

theorem foldr_max (x : ℝ) (l : List ℝ) : ((x :: l).max?).getD 0 = (x :: l).foldr max x := by
  rw [List.max?_cons', Option.getD_some]
  have gen : ∀ (l : List ℝ) (a : ℝ), l.foldl max a = l.foldr max a := by
    intro l
    induction l with
    | nil => intro a; rfl
    | cons y l ih =>
      intro a
      rw [List.foldl_cons, List.foldr_cons, ih]
      clear ih
      induction l with
      | nil => exact max_comm a y
      | cons z l ih => rw [List.foldr_cons, List.foldr_cons, ih, max_left_comm]
  rw [gen, List.foldr_cons]
  clear gen
  induction l with
  | nil => simp
  | cons z l ih => rw [List.foldr_cons, max_left_comm, ← ih]

theorem foldr_min (x : ℝ) (l : List ℝ) : ((x :: l).min?).getD 0 = (x :: l).foldr min x := by
  rw [List.min?_cons', Option.getD_some]
  have gen : ∀ (l : List ℝ) (a : ℝ), l.foldl min a = l.foldr min a := by
    intro l
    induction l with
    | nil => intro a; rfl
    | cons y l ih =>
      intro a
      rw [List.foldl_cons, List.foldr_cons, ih]
      clear ih
      induction l with
      | nil => exact min_comm a y
      | cons z l ih => rw [List.foldr_cons, List.foldr_cons, ih, min_left_comm]
  rw [gen, List.foldr_cons]
  clear gen
  induction l with
  | nil => simp
  | cons z l ih => rw [List.foldr_cons, min_left_comm, ← ih]

theorem extent_eq (ps : List (Particle ℝ)) (i : Fin 3) : extent ps i = axisExtent ps i := by
  unfold extent axisExtent
  cases ps with
  | nil => simp
  | cons p ps => rw [List.map_cons, foldr_max, foldr_min]; rfl

theorem epsilon_centre (choose : Nat → List Nat) (fuel : Nat) (mode : Bool) (L angle : ℝ) (ps : List (Particle ℝ)) :
    epsilon choose fuel mode L angle ps =
      (shapeCentre choose fuel L (if mode then .mode else .com) ps).map fun c =>
        epsilonAbout c angle (unwrappedParticles choose L ps) := by
  unfold epsilon shapeCentre unwrappedParticles
  cases mode
  · rfl
  · simp only [if_true, extent_eq, max_assoc]

theorem moment_zero (c : Vec ℝ) (ps : List (Particle ℝ)) :
    moment c 0 ps 0 0 = secondMoment c ps 0 0 / (ps.map fun p => p.mass).sum ∧
    moment c 0 ps 1 1 = secondMoment c ps 1 1 / (ps.map fun p => p.mass).sum ∧
    moment c 0 ps 0 1 = secondMoment c ps 0 1 / (ps.map fun p => p.mass).sum := by
  unfold moment secondMoment rotateZ
  simp

/-- C43. What is returned for an object: there is a result if and only if its centre (the one used for shapes) can be found.  The result is NaN if the total mass or
the projected extent vanishes; else it is `(Qxx - Qyy + 2 i Qxy) / (Qxx + Qyy)` turned by twice the angle, where `Q` are the second mass moments about that centre of
the unwrapped particles, seen along the z axis. -/
theorem C43_second_moments (choose : Nat → List Nat) (fuel : Nat) (mode : Bool) (L angle : ℝ) (ps : List (Particle ℝ)) :
    (epsilon choose fuel mode L angle ps = none ↔ shapeCentre choose fuel L (if mode then .mode else .com) ps = none) ∧
    ∀ c, shapeCentre choose fuel L (if mode then .mode else .com) ps = some c →
      let us := unwrappedParticles choose L ps
      ((us.map fun p => p.mass).sum = 0 ∨ secondMoment c us 0 0 + secondMoment c us 1 1 = 0 →
        epsilon choose fuel mode L angle ps = some none) ∧
      ((us.map fun p => p.mass).sum ≠ 0 → secondMoment c us 0 0 + secondMoment c us 1 1 ≠ 0 →
        epsilon choose fuel mode L angle ps = some (some (Complex.exp (2 * angle * Complex.I) *
          ((secondMoment c us 0 0 - secondMoment c us 1 1 : ℝ) + 2 * Complex.I * (secondMoment c us 0 1 : ℝ)) /
            (secondMoment c us 0 0 + secondMoment c us 1 1 : ℝ)))) := by
  refine ⟨?_, ?_⟩
  · rw [epsilon_centre]
    cases shapeCentre choose fuel L (if mode then .mode else .com) ps <;> simp
  · intro c hc
    dsimp only
    rw [C43_rotation, epsilon_centre, hc, Option.map_some, Option.map_some]
    generalize unwrappedParticles choose L ps = us
    obtain ⟨h00, h11, h01⟩ := moment_zero c us
    unfold epsilonAbout
    dsimp only
    rw [h00, h11, h01]
    generalize secondMoment c us 0 0 = a
    generalize secondMoment c us 1 1 = b
    generalize secondMoment c us 0 1 = d
    generalize (us.map fun p => p.mass).sum = M
    refine ⟨fun h => ?_, fun hM hab => ?_⟩
    · rw [if_pos]
      · rfl
      · rcases h with h | h
        · exact Or.inl h
        · right
          rw [← add_div, h, zero_div]
    · have h1 : ¬ (M = 0 ∨ a / M + b / M = 0) := by
        rintro (h | h)
        · exact hM h
        · rw [← add_div, div_eq_zero_iff] at h
          exact h.elim hab hM
      rw [if_neg h1, Option.map_some]
      congr 2
      have hM' : (M : ℂ) ≠ 0 := by exact_mod_cast hM
      have hab' : ((a : ℂ) + b) ≠ 0 := by exact_mod_cast hab
      push_cast
      rw [← add_div, ← sub_div, div_div_div_cancel_right₀ hM']
      field_simp

/-- A concrete case (not periodic): two particles of mass 1 at distance 1 from their centre of mass on the x axis: ellipticity 1. -/
example : epsilon (fun _ => []) 5 false 0 0 [⟨![49, 50, 50], 1⟩, ⟨![51, 50, 50], 1⟩] = some (some 1) := by
  have hu : unwrappedParticles (fun _ => []) 0 [⟨![49, 50, 50], 1⟩, ⟨![51, 50, 50], 1⟩] =
      [⟨![49, 50, 50], 1⟩, ⟨![51, 50, 50], 1⟩] := by
    unfold unwrappedParticles
    rw [unwrapped_eq]
    simp
  rw [epsilon_centre, hu]
  have hc : shapeCentre (fun _ => []) 5 0 .com [⟨![49, 50, 50], 1⟩, ⟨![51, 50, 50], 1⟩] = some ![50, 50, 50] := by
    have : shapeCentre (fun _ => []) 5 0 .com [⟨![49, 50, 50], 1⟩, ⟨![51, 50, 50], 1⟩] =
        some (calcCoM [] (unwrappedParticles (fun _ => []) 0 [⟨![49, 50, 50], 1⟩, ⟨![51, 50, 50], 1⟩])) := rfl
    rw [this, hu, calcCoM_eq _ _ (by norm_num [totalMass])]
    congr 1
    funext i
    fin_cases i <;> norm_num [weightedMean, totalMass]
  simp only [Bool.false_eq_true, if_false]
  rw [hc]
  norm_num [epsilonAbout, moment, rotateZ]

end Verif.Api
