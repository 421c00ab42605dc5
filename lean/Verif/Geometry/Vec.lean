import Mathlib.Algebra.BigOperators.Group.List.Basic
import Mathlib.Algebra.Module.Pi
import Mathlib.Algebra.Order.Field.Basic
import Mathlib.Data.Fin.VecNotation
import Mathlib.Tactic.FieldSimp
import Mathlib.Tactic.Ring
import Mathlib.Tactic.Linarith

/-! # Vectors, particles and weighted means -/

set_option linter.unusedSectionVars false

namespace Verif

/-- A position (or velocity). -/
abbrev Vec (K : Type) := Fin 3 → K

/-- A particle: position and mass. -/
structure Particle (K : Type) where
  pos : Vec K
  mass : K

variable {K : Type} [Field K] [LinearOrder K] [IsStrictOrderedRing K]

/-- Total mass. -/
def totalMass (ps : List (Particle K)) : K := (ps.map fun p => p.mass).sum

/-- The mass-weighted mean position. -/
def weightedMean (ps : List (Particle K)) : Vec K := fun i =>
  (ps.map fun p => p.mass * p.pos i).sum / totalMass ps

/-- Move all particles by `t`. -/
def translate (t : Vec K) (ps : List (Particle K)) : List (Particle K) :=
  ps.map fun p => ⟨p.pos + t, p.mass⟩

theorem sum_map_mul_left' {α : Type} (l : List α) (f : α → K) (c : K) :
    (l.map fun a => c * f a).sum = c * (l.map f).sum := by
  induction l with
  | nil => simp
  | cons a l ih => simp [ih, mul_add]

theorem sum_map_add' {α : Type} (l : List α) (f g : α → K) :
    (l.map fun a => f a + g a).sum = (l.map f).sum + (l.map g).sum := by
  induction l with
  | nil => simp
  | cons a l ih => simp [ih]; ring

theorem sum_map_div' {α : Type} (l : List α) (f : α → K) (c : K) :
    (l.map fun a => f a / c).sum = (l.map f).sum / c := by
  induction l with
  | nil => simp
  | cons a l ih => simp [ih, add_div]

theorem sum_map_le' {α : Type} (l : List α) (f g : α → K) (h : ∀ a ∈ l, f a ≤ g a) :
    (l.map f).sum ≤ (l.map g).sum := by
  induction l with
  | nil => simp
  | cons a l ih =>
    simp only [List.map_cons, List.sum_cons]
    exact add_le_add (h a (by simp)) (ih fun a ha => h a (by simp [ha]))

theorem sum_map_nonneg' {α : Type} (l : List α) (f : α → K) (h : ∀ a ∈ l, 0 ≤ f a) :
    0 ≤ (l.map f).sum := by
  have := sum_map_le' l (fun _ => (0 : K)) f h
  simpa using this

/-- A weighted mean lies between the bounds of the positions. -/
theorem weightedMean_bounds (ps : List (Particle K)) (hm : ∀ p ∈ ps, 0 ≤ p.mass)
    (hM : 0 < totalMass ps) (i : Fin 3) (a b : K) (hb : ∀ p ∈ ps, a ≤ p.pos i ∧ p.pos i ≤ b) :
    a ≤ weightedMean ps i ∧ weightedMean ps i ≤ b := by
  unfold weightedMean
  rw [le_div_iff₀ hM, div_le_iff₀ hM]
  unfold totalMass
  rw [← sum_map_mul_left', ← sum_map_mul_left']
  constructor
  · apply sum_map_le'
    intro p hp
    have := mul_le_mul_of_nonneg_left (hb p hp).1 (hm p hp)
    linarith [mul_comm a p.mass]
  · apply sum_map_le'
    intro p hp
    have := mul_le_mul_of_nonneg_left (hb p hp).2 (hm p hp)
    linarith [mul_comm b p.mass]

end Verif
