import Verif.Api.Model
import Verif.Shapes.Props

/-!
# Model of shape catalogues, from construction of an object to the result

`getShapeCatLocal`, `getShapeCatGlobal` (`cosmic_profiles/shape_profs/shape_profs_classes.pyx:76-150`),
`_getShapeCatLocalBase`, `_getShapeCatGlobalBase` (`cosmic_profiles/common/cosmic_base_class.pyx:83-245`)
without stored catalogue (stored catalogues: C60-C62), and the calls of `calcMorphLocal`,
`calcMorphGlobal` (`cosmic_profiles/shape_profs/shape_profs_algos.pyx:517-735`).  As in `Api/Model.lean`:
objects made from arrays, process 0, real arithmetic, integer selections.
-/

namespace Verif.Api

open Verif.Units Verif.Catalogue Verif.Periodic Verif.Par
open Verif.Shapes (Settings Solver Kind ObjScratch ObjData Slot Morph Part shapeBody columns report)

/-- `katz_config` after `checkKatzConfig` (C86). -/
structure Katz where
  radii : List ℝ
  tol : ℝ
  wall : Int
  itMin : Int
  reduced : Bool
  shellBased : Bool

/-- What both calls hand on; `SAFE = 6` (cosmic_base_class.pyx:62), in internal length units. -/
def Katz.settings (k : Katz) (sol : Solver) (box : ℝ) : Settings :=
  ⟨k.tol, k.wall, k.itMin, k.reduced, k.shellBased, sol, k.radii, 6, box⟩

/-- `whole = true`: `getShapeCatGlobal`. -/
def kindOf (whole : Bool) : Kind := if whole then .globalShape else .localShape

/-- `max(xyz_[:,a]) - min(xyz_[:,a])`; 0 stands for the exception of an empty object. -/
noncomputable def axisExtent (ps : List (Particle ℝ)) (a : Fin 3) : ℝ :=
  ((ps.map fun p => p.pos a).max?).getD 0 - ((ps.map fun p => p.pos a).min?).getD 0

/-- Centre of one object for shapes, shape_profs_algos.pyx:587-592, 691-696: as for masses and density
profiles, but mode finding starts with the extent of the object instead of 1000. -/
noncomputable def shapeCentre (choose : Nat → List Nat) (limit : Nat) (L : ℝ) (center : Center)
    (ps : List (Particle ℝ)) : Option (Vec ℝ) :=
  let xyz := respectPBCNoRef (choose ps.length) (ps.map fun p => p.pos) L
  let ps' := List.zipWith (fun x p => (⟨x, p.mass⟩ : Particle ℝ)) xyz ps
  match center with
  | .mode => calcMode limit ps' (max (max (axisExtent ps' 0) (axisExtent ps' 1)) (axisExtent ps' 2))
  | .com => some (calcCoM (choose ps.length) ps')

/-- Scratch arrays of one thread at the beginning: zeros; the rows have the length of the largest
object, shape_profs_algos.pyx:573-582, 676-686. -/
def freshScratch (st : Settings) (kind : Kind) (largest : Nat) : ObjScratch :=
  ⟨List.replicate largest 0, List.replicate largest 0, List.replicate largest 0,
    List.replicate (columns st kind) .zero,
    ⟨List.replicate largest 0, List.replicate largest 0, List.replicate largest 0, fun _ _ => 0⟩⟩

/-- One entry of the structured array: NaN is `none`. -/
structure ShapeEntry where
  d : Option ℝ
  q : Option ℝ
  s : Option ℝ
  conv : Bool
  major : Fin 3 → Option ℝ
  inter : Fin 3 → Option ℝ
  minor : Fin 3 → Option ℝ

/-- Filling the structured array, shape_profs_classes.pyx:104-112, 140-148. -/
noncomputable def entryOf (fac : ℝ) (m : Morph) : ShapeEntry :=
  let r := report m
  ⟨r.d.map (· * fac), r.q, r.s, r.q.isSome, r.major, r.inter, r.minor⟩

/-- Exceptions of the shape methods: those of `Err`, and a division by zero inside the loop (Cython, `cdivision=False`). -/
inductive ShapeErr
  | api (e : Err)
  | zeroDivision
  deriving DecidableEq

/-- Rows `d[p], q[p], ...` after the parallel loop; `none`: some iteration raised. -/
noncomputable def loopRows (st : Settings) (kind : Kind) (largest n : Nat)
    (ws : List (Step Nat Nat ObjScratch Slot)) : Option (List (List Morph)) :=
  (List.range n).mapM fun p =>
    ((runSteps ws ⟨fun _ => freshScratch st kind largest, fun _ => ⟨0, none⟩⟩).out p).morphs

/-- `getShapeCatLocal` and `getShapeCatGlobal` as a relation: possible outcomes under the schedules of
the parallel loop. -/
inductive GetShapeCat (c : Cfg ℝ) (sol : Solver) (choose : Nat → List Nat) (limit : Nat) (o : Obj)
    (katz : Katz) (whole : Bool) (sel : List Int) :
    Except ShapeErr (List (List ShapeEntry)) → Prop
  | rejected (e : Err) (h : selectParticles o sel = .error e) :
      GetShapeCat c sol choose limit o katz whole sel (.error (.api e))
  | diverges (parts : List (List (Particle ℝ))) (h : selectParticles o sel = .ok parts)
      (hc : parts.mapM (shapeCentre choose limit o.box o.center) = none) :
      GetShapeCat c sol choose limit o katz whole sel (.error (.api .recursion))
  | looped (parts : List (List (Particle ℝ))) (h : selectParticles o sel = .ok parts)
      (centers : List (Vec ℝ)) (hc : parts.mapM (shapeCentre choose limit o.box o.center) = some centers)
      (r200 : List ℝ) (hr : fancy o.r200 (sel.map Int.toNat) = some r200)
      (data : List ObjData)
      (hd : data = List.zipWith (fun (pc : List (Particle ℝ) × Vec ℝ) r =>
        ⟨pc.1.map fun p => ⟨p.pos, 0, p.mass⟩, pc.2, r⟩) (parts.zip centers) r200)
      (largest : Nat) (hl : ∀ ps ∈ parts, ps.length ≤ largest)
      (ws : List (Step Nat Nat ObjScratch Slot))
      (ex : Execution (fun p => (data[p]?.map (shapeBody (katz.settings sol o.box) (kindOf whole))).getD [])
        (List.range data.length) ws)
      (l m : ℝ) (hu : internalLM c = .ok (l, m))
      (out : Except ShapeErr (List (List ShapeEntry)))
      (hout : out = match loopRows (katz.settings sol o.box) (kindOf whole) largest parts.length ws with
        | none => .error .zeroDivision
        | some rows => .ok (rows.map fun row => row.map (entryOf (l / c.outL)))) :
      GetShapeCat c sol choose limit o katz whole sel out

end Verif.Api
