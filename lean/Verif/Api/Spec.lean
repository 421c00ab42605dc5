import Verif.Geometry.Vec
import Mathlib.Data.Real.Basic

/-!
# What a user of an object made from arrays means

Independent of the model.  `xyz` and `masses` are the arrays handed in, `objs` the particle lists of
the objects (each with its R200), numbers in the user's input units.
-/

namespace Verif.Api

/-- The particles with the given numbers. -/
def particlesOf (xyz : List (Vec ℝ)) (masses : List ℝ) (idx : List Nat) : List (Particle ℝ) :=
  idx.filterMap fun i => (xyz[i]?).bind fun x => (masses[i]?).map fun m => ⟨x, m⟩

/-- The data make sense: as many masses as positions, a periodic box of positive length containing all
positions, positive masses, and objects consisting of existing particles. -/
structure Sensible (xyz : List (Vec ℝ)) (masses : List ℝ) (box : ℝ) (objs : List (List Nat × ℝ)) :
    Prop where
  lengths : xyz.length = masses.length
  box_pos : 0 < box
  inside : ∀ x ∈ xyz, ∀ a, 0 ≤ x a ∧ x a < box
  masses_pos : ∀ m ∈ masses, 0 < m
  objects : objs ≠ []
  exist : ∀ o ∈ objs, ∀ i ∈ o.1, i < xyz.length

/-- The objects with enough particles, in the given order; objects are numbered in this list. -/
def resolved (minPtcs : Int) (objs : List (List Nat × ℝ)) : List (List Nat × ℝ) :=
  objs.filter fun o => decide (minPtcs ≤ (o.1.length : Int))

/-- A good selection: not empty, no repetition, numbers of resolved objects. -/
def GoodSelection (sel : List Int) (nb : Nat) : Prop :=
  sel ≠ [] ∧ sel.Nodup ∧ ∀ z ∈ sel, 0 ≤ z ∧ z < nb

/-- `q` is a particle of the same mass at a periodic image of the position of `p`. -/
def ParticleImage (L : ℝ) (p q : Particle ℝ) : Prop :=
  q.mass = p.mass ∧ ∀ a, ∃ k : ℤ, q.pos a = p.pos a + k * L

/-- `y` is, up to whole boxes, the mean position of periodic images of all (`all = true`) or some
(`all = false`) of the particles `ps`. -/
def MeanOfImages (L : ℝ) (all : Bool) (ps : List (Particle ℝ)) (y : Vec ℝ) : Prop :=
  ∃ imgs : List (Particle ℝ), List.Forall₂ (ParticleImage L) ps imgs ∧
    ∃ sub : List (Particle ℝ), sub.Sublist imgs ∧ sub ≠ [] ∧ (all = true → sub = imgs) ∧
      ∀ a, ∃ k : ℤ, y a = weightedMean sub a + k * L

/-- Lower end of the radial bin of the `b`-th radius (in units of R200): half way to the previous radius. -/
noncomputable def lowerEdge (radii : List ℝ) (b : Nat) : ℝ :=
  if b = 0 then 1e-8 else (radii[b - 1]?.getD 0 + radii[b]?.getD 0) / 2

/-- Upper end: half way to the next radius; the last bin ends at the last radius. -/
noncomputable def upperEdge (radii : List ℝ) (b : Nat) : ℝ :=
  if b + 1 = radii.length then radii[b]?.getD 0 else (radii[b]?.getD 0 + radii[b + 1]?.getD 0) / 2

/-- No two particles are farther apart than half the box along any axis (so that the object does not
cross a face of the box). -/
def NotCrossing (L : ℝ) (ps : List (Particle ℝ)) : Prop :=
  ∀ p ∈ ps, ∀ q ∈ ps, ∀ a, |p.pos a - q.pos a| ≤ L / 2

end Verif.Api
