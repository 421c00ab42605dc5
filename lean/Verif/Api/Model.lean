import Verif.Units.Props
import Verif.Catalogue.Props
import Verif.Periodic.Props
import Verif.Binning.Parallel

/-!
# Model of an object made from arrays, from construction to results

* `DensShapeProfs.__init__` (`cosmic_profiles/shape_profs/shape_profs_classes.pyx:466-515`),
  `DensProfsBase.__init__` (`cosmic_profiles/dens_profs/dens_profs_classes.pyx:51-58`)
* `getXYZMasses`, `getR200`, `getIdxCat`, `getMassesCenters`, `estDensProfs`
  (`cosmic_profiles/dens_profs/dens_profs_classes.pyx:60-160`)
* `calcMassesCenters`, `calcDensProfsSphDirectBinning`
  (`cosmic_profiles/dens_profs/dens_profs_algos.pyx:15-110`)

The models of the parts (units, selections, catalogues, periodicity, binning) are those of the other
directories; here they are put together.  Process 0 only; real arithmetic; particle numbers are natural
numbers (negative ones, which numpy counts from the end, are not modelled).
-/

namespace Verif.Api

open Verif.Units Verif.Catalogue Verif.Periodic Verif.Binning Verif.Par

/-- The argument `CENTER`: `'mode'`, everything else means centre of mass. -/
inductive Center | mode | com
  deriving DecidableEq

/-- Arguments of `DensShapeProfs.__init__` (and `DensProfs.__init__`) that matter here. -/
structure Input where
  xyz : List (Vec ℝ)
  masses : List ℝ
  idxCat : IdxArg Nat
  r200 : RadArg ℝ
  box : ℝ
  minPtcs : Int
  center : Center

/-- Attributes of the object, in internal units (dens_profs_classes.pyx:51-58). -/
structure Obj where
  xyz : List (Vec ℝ)
  masses : List ℝ
  idxCat : List Nat
  r200 : List ℝ
  sizes : List Nat
  box : ℝ
  center : Center

/-- Exceptions of the methods: `assert` in the constructor and the converters (shape_profs_classes.pyx:487-490, python_routines.py), an index out of range, units, a refused selection (cosmic_base_class.pyx), too deep a recursion (`calcMode`). -/
inductive Err
  | assertion | index | units | selection (e : SelErr) | recursion
  deriving DecidableEq

/-- The constructor, shape_profs_classes.pyx:491-515. -/
noncomputable def construct (c : Cfg ℝ) (i : Input) : Except Err Obj :=
  if i.xyz.length ≠ i.masses.length then .error .assertion
  else match internalLM c with
    | .error _ => .error .units
    | .ok (l, m) =>
      match Catalogue.construct (fun r => r * (c.inL / l)) i.minPtcs i.idxCat i.r200 with
      | none => .error .index
      | some (cat, r, s) =>
        .ok { xyz := i.xyz.map fun p a => p a * (c.inL / l)
              masses := i.masses.map fun x => x * (c.inM / m)
              idxCat := cat, r200 := r, sizes := s
              box := i.box * (c.inL / l), center := i.center }

/-- `getXYZMasses`, dens_profs_classes.pyx:83-95. -/
noncomputable def getXYZMasses (c : Cfg ℝ) (o : Obj) : Except Err (List (Vec ℝ) × List ℝ) :=
  match internalLM c with
  | .error _ => .error .units
  | .ok (l, m) =>
    .ok (o.xyz.map fun p a => p a * (l / c.outL), o.masses.map fun x => x * (m / c.outM))

/-- `getR200`, dens_profs_classes.pyx:60-69. -/
noncomputable def getR200 (c : Cfg ℝ) (o : Obj) : Except Err (List ℝ) :=
  match internalLM c with
  | .error _ => .error .units
  | .ok (l, _) => .ok (o.r200.map fun x => x * (l / c.outL))

/-- `getIdxCat`, dens_profs_classes.pyx:71-81. -/
def getIdxCat (o : Obj) : List Nat × List Nat := (o.idxCat, o.sizes)

/-- Fancy indexing of positions and masses with a list of particle numbers; `none` = IndexError. -/
def gather (o : Obj) (idxs : List Nat) : Option (List (Particle ℝ)) :=
  idxs.mapM fun i => (o.xyz[i]?).bind fun x => (o.masses[i]?).map fun m => ⟨x, m⟩

/-- Check of the selection, sub-catalogue, and gathering of the particles of each selected object,
dens_profs_classes.pyx:107-113, dens_profs_algos.pyx:36-39 (integer selections). -/
def selectParticles (o : Obj) (sel : List Int) : Except Err (List (List (Particle ℝ))) :=
  match acceptSelection (.array (sel.map fun z : Int => (z : ℚ))) o.sizes.length with
  | .error e => .error (.selection e)
  | .ok _ =>
    match getSubSetIdxCat o.idxCat o.sizes (sel.map Int.toNat),
        fancy o.sizes (sel.map Int.toNat) with
    | some cat, some sizes =>
      match (List.range sizes.length).mapM fun p => (objSlice cat sizes p).bind (gather o) with
      | some parts => .ok parts
      | none => .error .index
    | _, _ => .error .index

/-- Centre of one object, dens_profs_algos.pyx:38-43 (also 96-102).  `choose n` are the particles drawn
by `default_rng(seed=0).choice` from `n`; `limit` is the recursion limit. -/
noncomputable def centreOf (choose : Nat → List Nat) (limit : Nat) (L : ℝ) (center : Center)
    (ps : List (Particle ℝ)) : Option (Vec ℝ) :=
  let xyz := respectPBCNoRef (choose ps.length) (ps.map fun p => p.pos) L
  let ps' := List.zipWith (fun x p => (⟨x, p.mass⟩ : Particle ℝ)) xyz ps
  match center with
  | .mode => calcMode limit ps' 1000
  | .com => some (calcCoM (choose ps.length) ps')

/-- Body of the parallel loop summing up masses, dens_profs_algos.pyx:44-46. -/
noncomputable def massBody (ps : List (Particle ℝ)) : List (Action Unit ℝ) :=
  ps.map fun p x => (x.1, x.2 + p.mass)

/-- `getMassesCenters`, dens_profs_classes.pyx:96-123 with dens_profs_algos.pyx:33-51, as a relation:
possible outcomes under the schedules of the parallel loop. Result: centre and mass of each object. -/
inductive GetMassesCenters (c : Cfg ℝ) (choose : Nat → List Nat) (limit : Nat) (o : Obj)
    (sel : List Int) : Except Err (List (Vec ℝ × ℝ)) → Prop
  | rejected (e : Err) (h : selectParticles o sel = .error e) :
      GetMassesCenters c choose limit o sel (.error e)
  | diverges (parts : List (List (Particle ℝ))) (h : selectParticles o sel = .ok parts)
      (hc : parts.mapM (centreOf choose limit o.box o.center) = none) :
      GetMassesCenters c choose limit o sel (.error .recursion)
  | finished (parts : List (List (Particle ℝ))) (h : selectParticles o sel = .ok parts)
      (centers : List (Vec ℝ)) (hc : parts.mapM (centreOf choose limit o.box o.center) = some centers)
      (ws : List (Step Nat Nat Unit ℝ))
      (ex : Execution (fun p => massBody (parts[p]?.getD [])) (List.range parts.length) ws)
      (l m : ℝ) (hu : internalLM c = .ok (l, m)) :
      GetMassesCenters c choose limit o sel (.ok (List.zipWith
        (fun v p => (fun a => v a * (l / c.outL),
          (runSteps ws ⟨fun _ => (), fun _ => 0⟩).out p * (m / c.outM)))
        (recentreObject centers o.box) (List.range parts.length)))

/-- `estDensProfs` with `direct_binning = True, spherical = True`, dens_profs_classes.pyx:141-160,
cosmic_base_class.pyx:930-953, dens_profs_algos.pyx:77-110, as a relation.  `radii` is `r_over_r200`.
The scratch arrays are zero at the beginning; their length is that of the largest object. -/
inductive EstDensProfs (c : Cfg ℝ) (choose : Nat → List Nat) (limit : Nat) (o : Obj)
    (radii : List ℝ) (sel : List Int) : Except Err (List (List ℝ)) → Prop
  | rejected (e : Err) (h : selectParticles o sel = .error e) :
      EstDensProfs c choose limit o radii sel (.error e)
  | noRadii (parts : List (List (Particle ℝ))) (h : selectParticles o sel = .ok parts)
      (he : sphEdges radii = none) : EstDensProfs c choose limit o radii sel (.error .index)
  | diverges (parts : List (List (Particle ℝ))) (h : selectParticles o sel = .ok parts)
      (hc : parts.mapM (centreOf choose limit o.box o.center) = none) :
      EstDensProfs c choose limit o radii sel (.error .recursion)
  | finished (parts : List (List (Particle ℝ))) (h : selectParticles o sel = .ok parts)
      (edges : List ℝ) (he : sphEdges radii = some edges)
      (centers : List (Vec ℝ)) (hc : parts.mapM (centreOf choose limit o.box o.center) = some centers)
      (r200 : List ℝ) (hr : fancy o.r200 (sel.map Int.toNat) = some r200)
      (data : List ObjectData)
      (hd : data = List.zipWith (fun (pc : List (Particle ℝ) × Vec ℝ) r => ⟨pc.1, pc.2, r⟩)
        (parts.zip centers) r200)
      (largest : Nat) (hl : ∀ ps ∈ parts, ps.length ≤ largest)
      (ws : List (Step Nat Nat DensScratch (List ℝ)))
      (ex : Execution (fun p => (data[p]?.map (densBody o.box edges)).getD [])
        (List.range data.length) ws)
      (out : List (List ℝ))
      (hout : (List.range parts.length).mapM (fun p => (estOut c ((runSteps ws
        ⟨fun _ => ⟨List.replicate largest 0, List.replicate largest 0, List.replicate largest 0⟩,
          fun _ => []⟩).out p)).toOption) = some out) :
      EstDensProfs c choose limit o radii sel (.ok out)

end Verif.Api
