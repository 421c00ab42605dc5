import Mathlib.Data.List.Basic
import Mathlib.Data.Int.Notation

/-!
# What a halo catalogue should contain

Independent of the model: a FoF group has a number of particles, an R200 radius and a list of
subhalo sizes, the first of which is its central subhalo.  Particles are stored group after group.
-/

namespace Verif.Catalogue

variable {R : Type}

/-- A group of the halo finder: number of particles, overdensity radius, numbers of particles of its subhalos (the central one first). -/
structure Group (R : Type) where
  fofSize : Nat
  r200 : R
  subs : List Nat

/-- The tables a halo finder writes for a list of groups. -/
def tableNbShs (gs : List (Group R)) : List Int := gs.map fun g => (g.subs.length : Int)
/-- Sizes of all subhalos. -/
def tableShLen (gs : List (Group R)) : List Int := (gs.flatMap Group.subs).map fun n : Nat => (n : Int)
/-- Sizes of all groups. -/
def tableFofSizes (gs : List (Group R)) : List Int := gs.map fun g => (g.fofSize : Int)
/-- Radii of all groups. -/
def tableR200 (gs : List (Group R)) : List R := gs.map Group.r200

/-- Number of particles in the groups before group `p`. -/
def startOf (gs : List (Group R)) (p : Nat) : Nat := ((gs.take p).map Group.fofSize).sum

/-- The object of group `p`, if it qualifies: `c` consecutive particles starting behind the particles
of the preceding groups, where `c` is the size of the central subhalo. -/
def objectOf (minPtcs : Int) (gs : List (Group R)) (p : Nat) : Option (List Int × R × Int) :=
  match gs[p]? with
  | some ⟨_, r, c :: _⟩ =>
    if minPtcs ≤ c then some ((List.range c).map fun k : Nat => (startOf gs p : Int) + (k : Int), r, c) else none
  | _ => none

/-- The objects of all qualifying groups, in the order of the groups. -/
def expectedObjects (minPtcs : Int) (gs : List (Group R)) : List (List Int × R × Int) :=
  (List.range gs.length).filterMap (objectOf minPtcs gs)

end Verif.Catalogue
