import Verif.Api.Neighbours
import Verif.Api.AgreeFiles

/-!
# Results at a radius and the other radii asked for, for objects made from snapshot files (C187, C188)
-/

namespace Verif.Api

open Verif.Periodic Verif.Binning
open Verif (Vec Particle weightedMean totalMass)
open Verif.Units Verif.Catalogue Verif.Periodic Verif.Binning Verif.Par Verif.Gadget
open Verif.Shapes (Solver GoodSolver Settings)

/-- C187, from files: the global shape of a central subhalo is its local shape at R200 (as read, in single precision) plus 6 Mpc/h. -/
theorem C187_from_files_partial (c c' : Cfg ℝ) (hc : c.Pos) (mc : Machine) (hrank : mc.rank = 0) (hsize : 0 < mc.size)
    (i : GInput) (pt : Nat) (hpt : getPartType i.objType = .ok pt)
    (hw : i.rvirOrR200 = "Rvir" ∨ i.rvirOrR200 = "R200") (s : Simulation)
    (hsens : Sensible s.pos s.mass s.box (centrals s.groups)) (hmin : 1 ≤ i.minPtcs)
    (hs : StoredIn mc i.snapshot pt s) (hg : GroupsOf i.groupFiles i.rvirOrR200 pt s)
    (sol : Solver) (choose : Nat → List Nat) (limit : Nat) (o : Obj) (ho : GadgetConstruct c mc i (.ok o))
    (katz katz' : Katz) (hkatz : SameIteration katz katz')
    (sel sel' : List Int) (hsel : GoodSelection sel (resolved i.minPtcs (objectsRead mc.f32 c s)).length)
    (hsel' : GoodSelection sel' (resolved i.minPtcs (objectsRead mc.f32 c s)).length)
    (res res' : List (List ShapeEntry))
    (hrun : GetShapeCat c' sol choose limit o katz false sel (.ok res))
    (hrun' : GetShapeCat c' sol choose limit o katz' true sel' (.ok res'))
    (k k' : Nat) (w : Int) (hk : sel[k]? = some w) (hk' : sel'[k']? = some w)
    (obj : List Nat × ℝ) (hobj : (resolved i.minPtcs (objectsRead mc.f32 c s))[w.toNat]? = some obj) (hr : 0 < obj.2)
    (b : Nat) (r : ℝ) (hb : katz.radii[b]? = some r) (hrad : r * obj.2 = obj.2 + 6 * mpch c.h / c.inL)
    (row row' : List ShapeEntry) (hrow : res[k]? = some row) (hrow' : res'[k']? = some row')
    (e e' : ShapeEntry) (he : row[b]? = some e) (he' : row'[0]? = some e') :
    e = e' := by
  obtain ⟨o', ho', heq⟩ := (C132_files_as_arrays c hc mc hrank hsize i pt hpt hw s hsens.lengths hs hg hsens.objects _).1 ho
  obtain rfl := Except.ok.inj heq
  exact C187_margin_partial c c' hc s.pos s.mass s.box (objectsRead mc.f32 c s) i.minPtcs hmin i.center (sensible_read _ _ _ hsens) sol choose
    limit o ho' katz katz' hkatz sel sel' hsel hsel' res res' hrun hrun' k k' w hk hk' obj hobj hr b r hb hrad row row' hrow hrow' e e' he he'

/-- C188, shapes from files. -/
theorem C188_shapes_from_files_partial (c c' : Cfg ℝ) (hc : c.Pos) (mc : Machine) (hrank : mc.rank = 0) (hsize : 0 < mc.size)
    (i : GInput) (pt : Nat) (hpt : getPartType i.objType = .ok pt)
    (hw : i.rvirOrR200 = "Rvir" ∨ i.rvirOrR200 = "R200") (s : Simulation)
    (hsens : Sensible s.pos s.mass s.box (centrals s.groups)) (hmin : 1 ≤ i.minPtcs)
    (hs : StoredIn mc i.snapshot pt s) (hg : GroupsOf i.groupFiles i.rvirOrR200 pt s)
    (sol : Solver) (choose : Nat → List Nat) (limit : Nat) (o : Obj) (ho : GadgetConstruct c mc i (.ok o))
    (katz katz' : Katz) (b b' : Nat) (hkatz : SameRadius katz b katz' b')
    (sel sel' : List Int) (hsel : GoodSelection sel (resolved i.minPtcs (objectsRead mc.f32 c s)).length)
    (hsel' : GoodSelection sel' (resolved i.minPtcs (objectsRead mc.f32 c s)).length)
    (res res' : List (List ShapeEntry))
    (hrun : GetShapeCat c' sol choose limit o katz false sel (.ok res))
    (hrun' : GetShapeCat c' sol choose limit o katz' false sel' (.ok res'))
    (k k' : Nat) (w : Int) (hk : sel[k]? = some w) (hk' : sel'[k']? = some w)
    (obj : List Nat × ℝ) (hobj : (resolved i.minPtcs (objectsRead mc.f32 c s))[w.toNat]? = some obj) (hr : 0 < obj.2)
    (row row' : List ShapeEntry) (hrow : res[k]? = some row) (hrow' : res'[k']? = some row')
    (e e' : ShapeEntry) (he : row[b]? = some e) (he' : row'[b']? = some e') :
    e = e' := by
  obtain ⟨o', ho', heq⟩ := (C132_files_as_arrays c hc mc hrank hsize i pt hpt hw s hsens.lengths hs hg hsens.objects _).1 ho
  obtain rfl := Except.ok.inj heq
  exact C188_shapes_partial c c' hc s.pos s.mass s.box (objectsRead mc.f32 c s) i.minPtcs hmin i.center (sensible_read _ _ _ hsens) sol choose
    limit o ho' katz katz' b b' hkatz sel sel' hsel hsel' res res' hrun hrun' k k' w hk hk' obj hobj hr row row' hrow hrow' e e' he he'

/-- C188, binned density profiles from files. -/
theorem C188_density_from_files_partial (c c' : Cfg ℝ) (hc : c.Pos) (hc' : c'.Pos) (hh : c'.h = c.h) (mc : Machine) (hrank : mc.rank = 0)
    (hsize : 0 < mc.size) (i : GInput) (pt : Nat) (hpt : getPartType i.objType = .ok pt)
    (hw : i.rvirOrR200 = "Rvir" ∨ i.rvirOrR200 = "R200") (s : Simulation)
    (hsens : Sensible s.pos s.mass s.box (centrals s.groups))
    (hr200 : ∀ o ∈ centrals s.groups, 0 < mc.f32 (o.2 * (c.inL / mpch c.h))) (hmin : 1 ≤ i.minPtcs)
    (hs : StoredIn mc i.snapshot pt s) (hg : GroupsOf i.groupFiles i.rvirOrR200 pt s)
    (choose : Nat → List Nat) (hch : ∀ n, 0 < n → ∃ j ∈ choose n, j < n) (limit : Nat) (o : Obj)
    (ho : GadgetConstruct c mc i (.ok o))
    (before before' : List ℝ) (x r y : ℝ) (after after' : List ℝ) (radii radii' : List ℝ)
    (hform : radii = before ++ x :: r :: y :: after) (hform' : radii' = before' ++ x :: r :: y :: after')
    (hinc : radii.Pairwise (· < ·)) (hpos : ∀ r ∈ radii, 1e-8 < r) (hinc' : radii'.Pairwise (· < ·)) (hpos' : ∀ r ∈ radii', 1e-8 < r)
    (sel sel' : List Int) (hsel : GoodSelection sel (resolved i.minPtcs (objectsRead mc.f32 c s)).length)
    (hsel' : GoodSelection sel' (resolved i.minPtcs (objectsRead mc.f32 c s)).length)
    (res res' : List (List ℝ)) (hrun : EstDensProfs c' choose limit o radii sel (.ok res))
    (hrun' : EstDensProfs c' choose limit o radii' sel' (.ok res'))
    (k k' : Nat) (z : Int) (hk : sel[k]? = some z) (hk' : sel'[k']? = some z)
    (obj : List Nat × ℝ) (hobj : (resolved i.minPtcs (objectsRead mc.f32 c s))[z.toNat]? = some obj)
    (hnc : NotCrossing s.box (particlesOf s.pos s.mass obj.1))
    (row row' : List ℝ) (hrow : res[k]? = some row) (hrow' : res'[k']? = some row')
    (dens dens' : ℝ) (hd : row[before.length + 1]? = some dens) (hd' : row'[before'.length + 1]? = some dens') : dens = dens' := by
  obtain ⟨o', ho', heq⟩ := (C132_files_as_arrays c hc mc hrank hsize i pt hpt hw s hsens.lengths hs hg hsens.objects _).1 ho
  obtain rfl := Except.ok.inj heq
  exact C188_density_partial c c' hc hc' hh s.pos s.mass s.box (objectsRead mc.f32 c s) i.minPtcs hmin i.center (sensible_read _ _ _ hsens)
    (radii_read_pos mc.f32 c hc s hr200) choose hch limit o ho' before before' x r y after after' radii radii' hform hform' hinc hpos hinc'
    hpos' sel sel' hsel hsel' res res' hrun hrun' k k' z hk hk' obj hobj hnc row row' hrow hrow' dens dens' hd hd'

/-- The files of `exampleSim` meet the hypotheses on the object (those on the files: example in Formats): it is kept, its radius is positive, and there is
a radius to ask for which reaches 6 Mpc/h farther. -/
example (c : Cfg ℝ) (hc : c.Pos) : ∃ obj, (resolved exampleInput.minPtcs (objectsRead exampleMachine.f32 c exampleSim))[(0 : Int).toNat]? = some obj ∧
    0 < obj.2 ∧ ∃ r, r * obj.2 = obj.2 + 6 * mpch c.h / c.inL := by
  have hcen : centrals exampleSim.groups = [([0, 1], 4)] := by
    simp [centrals, exampleSim, startOf, List.range_succ]
  have hm := mpch_pos hc.h
  have hp : ∀ o ∈ objectsRead exampleMachine.f32 c exampleSim, 0 < o.2 := by
    refine radii_read_pos exampleMachine.f32 c hc exampleSim ?_
    rw [hcen]
    intro o ho
    rw [List.mem_singleton] at ho
    subst ho
    exact mul_pos (by norm_num) (div_pos hc.inL hm)
  have hmem : ∃ obj, objectsRead exampleMachine.f32 c exampleSim = [obj] ∧ obj.1 = [0, 1] := by
    simp [objectsRead, hcen]
  obtain ⟨obj, h1, h2⟩ := hmem
  have h0 : 0 < obj.2 := hp obj (by rw [h1]; exact List.mem_singleton_self _)
  refine ⟨obj, ?_, h0, (obj.2 + 6 * mpch c.h / c.inL) / obj.2, div_mul_cancel₀ _ h0.ne'⟩
  rw [h1]
  simp [resolved, exampleInput, h2]

end Verif.Api
