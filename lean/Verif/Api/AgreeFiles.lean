import Verif.Api.Agree
import Verif.Api.Formats

/-!
# Masses, centres and density profiles of objects made from snapshot files agree with each other (C186)
-/

namespace Verif.Api

open Verif.Periodic Verif.Binning
open Verif (Vec Particle weightedMean totalMass)
open Verif.Units Verif.Catalogue Verif.Periodic Verif.Binning Verif.Par Verif.Gadget
open Verif.Units Verif.Catalogue

/-- C186, from files.  The same for an object made from the files of a simulation, whatever their format: if getMassesCenters returns centres and
masses for central subhalos which cross no face, estDensProfs returns profiles, each about the centre returned, whose shells together contain at most
the mass returned, and exactly this mass if and only if all particles are between the innermost and the outermost edge. -/
theorem C186_from_files (c c' c'' : Cfg ℝ) (hc : c.Pos) (hc' : c'.Pos) (hc'' : c''.Pos) (hh : c'.h = c.h) (hh' : c''.h = c.h) (mc : Machine)
    (hrank : mc.rank = 0) (hsize : 0 < mc.size) (i : GInput) (pt : Nat) (hpt : getPartType i.objType = .ok pt)
    (hw : i.rvirOrR200 = "Rvir" ∨ i.rvirOrR200 = "R200") (s : Simulation)
    (hsens : Sensible s.pos s.mass s.box (centrals s.groups))
    (hr200 : ∀ o ∈ centrals s.groups, 0 < mc.f32 (o.2 * (c.inL / mpch c.h))) (hmin : 1 ≤ i.minPtcs)
    (hs : StoredIn mc i.snapshot pt s) (hg : GroupsOf i.groupFiles i.rvirOrR200 pt s)
    (choose : Nat → List Nat) (hch : ∀ n, 0 < n → ∃ j ∈ choose n, j < n) (limit : Nat) (o : Obj)
    (ho : GadgetConstruct c mc i (.ok o))
    (radii : List ℝ) (hradii : radii ≠ []) (hinc : radii.Pairwise (· < ·)) (hpos : ∀ r ∈ radii, 1e-8 < r)
    (sel : List Int) (hsel : GoodSelection sel (resolved i.minPtcs (objectsRead mc.f32 c s)).length)
    (hnc : ∀ (z : Int) (obj : List Nat × ℝ), z ∈ sel → (resolved i.minPtcs (objectsRead mc.f32 c s))[z.toNat]? = some obj →
      NotCrossing s.box (particlesOf s.pos s.mass obj.1))
    (mcs : List (Vec ℝ × ℝ)) (hrun : GetMassesCenters c' choose limit o sel (.ok mcs))
    (out : Except Err (List (List ℝ))) (hrun' : EstDensProfs c'' choose limit o radii sel out) :
    ∃ res, out = .ok res ∧ res.length = mcs.length ∧ mcs.length = sel.length ∧
      ∀ (k : Nat) (z : Int) (obj : List Nat × ℝ) (centre : Vec ℝ) (mass : ℝ) (row : List ℝ), sel[k]? = some z →
        (resolved i.minPtcs (objectsRead mc.f32 c s))[z.toNat]? = some obj → mcs[k]? = some (centre, mass) → res[k]? = some row →
        row.length = radii.length ∧
        (∀ (b : Nat) (dens : ℝ), row[b]? = some dens →
          dens * (c''.outM / c''.outL ^ 3) * shellVolume (lowerEdge radii b * (obj.2 * c.inL)) (upperEdge radii b * (obj.2 * c.inL)) =
            massBetween (fun a => centre a * c'.outL / c.inL) (particlesOf s.pos s.mass obj.1) (lowerEdge radii b * obj.2) (upperEdge radii b * obj.2) *
              c.inM) ∧
        massOfProfile c'' radii (obj.2 * c.inL) row ≤ mass * c'.outM ∧
        (massOfProfile c'' radii (obj.2 * c.inL) row = mass * c'.outM ↔
          ∀ p ∈ particlesOf s.pos s.mass obj.1, 1e-8 * obj.2 ≤ radius (fun a => centre a * c'.outL / c.inL) p ∧
            radius (fun a => centre a * c'.outL / c.inL) p < radii.getLast hradii * obj.2) := by
  obtain ⟨o', ho', he⟩ := (C132_files_as_arrays c hc mc hrank hsize i pt hpt hw s hsens.lengths hs hg hsens.objects _).1 ho
  obtain rfl := Except.ok.inj he
  exact C186_binned c c' c'' hc hc' hc'' hh hh' s.pos s.mass s.box (objectsRead mc.f32 c s) i.minPtcs hmin i.center
    (sensible_read _ _ _ hsens) (radii_read_pos mc.f32 c hc s hr200) choose hch limit o ho' radii hradii hinc hpos sel hsel hnc mcs hrun out hrun'

/-- The files of `exampleSim` meet the hypotheses of `C186_from_files` (the others: example in Formats): its object does not cross a face. -/
example (c : Cfg ℝ) (z : Int) (obj : List Nat × ℝ) (hz : z ∈ ([0] : List Int))
    (hob : (resolved exampleInput.minPtcs (objectsRead exampleMachine.f32 c exampleSim))[z.toNat]? = some obj) :
    NotCrossing exampleSim.box (particlesOf exampleSim.pos exampleSim.mass obj.1) := by
  have hcen : centrals exampleSim.groups = [([0, 1], 4)] := by
    simp [centrals, exampleSim, startOf, List.range_succ]
  rw [List.mem_singleton] at hz
  subst hz
  simp [objectsRead, hcen, resolved, exampleInput] at hob
  have e : obj.1 = [0, 1] := by rw [← hob]
  rw [e]
  intro p hp q hq a
  simp [particlesOf, exampleSim] at hp hq
  rcases hp with rfl | rfl <;> rcases hq with rfl | rfl <;> fin_cases a <;> simp [exampleSim] <;> norm_num

end Verif.Api
