import Verif.Api.DensProps

/-!
# Ellipsoidal density profiles of objects made from arrays: model

`estDensProfs(..., direct_binning = True, spherical = False)` of `DensShapeProfs` and `DensProfs`
(`cosmic_profiles/dens_profs/dens_profs_classes.pyx:141-160`,
`cosmic_profiles/common/cosmic_base_class.pyx:830-867, 930-953`,
`cosmic_profiles/dens_profs/dens_profs_algos.pyx:112-218`,
`cosmic_profiles/cython_helpers/helper_class.pyx:246-306`).

The shapes (`_getShapeCatLocalBase`) and their interpolation (`scipy.interpolate.interp1d`) are not
modelled here: the interpolated axes and directions are arbitrary real numbers, one ellipsoid per bin
edge and one set of directions per radius, and computing them may raise anything.  (An interpolated
value may also be NaN; then no particle passes the test and the bin is empty.)
-/

namespace Verif.Api

open Verif.Units Verif.Catalogue Verif.Periodic Verif.Binning Verif.Par

/-- Exceptions of `estDensProfs` with `direct_binning=False` on ellipsoidal shells: those of `Err`, and those of dens_profs_classes.pyx:107-115 and dens_profs_algos.pyx (divisions in Cython). -/
inductive EllErr
  | base (e : Err)
  /-- an exception while computing or interpolating shapes -/
  | shapes
  /-- `ValueError("Your r_over_r200 array has fewer than 3 entries...")` -/
  | value
  | zeroDivision
  deriving DecidableEq

/-- As `selectParticles`, with the assignment `idx_cat[offsets[p]:offsets[p+1]] = idx_cat[p]` to the
selected part of the catalogue before the particles are gathered, cosmic_base_class.pyx:934-936,
dens_profs_algos.pyx:169-170, 200-205, 213-215. -/
def selectEll (o : Obj) (sel : List Int) : Except Err (List (List (Particle ℝ))) :=
  match acceptSelection (.array (sel.map fun z : Int => (z : ℚ))) o.sizes.length with
  | .error e => .error (.selection e)
  | .ok _ =>
    match getSubSetIdxCat o.idxCat o.sizes (sel.map Int.toNat),
        fancy o.sizes (sel.map Int.toNat) with
    | some cat, some sizes =>
      match ellIdxCat cat sizes with
      | none => .error .index
      | some used =>
        match (List.range sizes.length).mapM fun p => (objSlice used sizes p).bind (gather o) with
        | some parts => .ok parts
        | none => .error .index
    | _, _ => .error .index

/-- What the parallel loop reads of an object: particles, centre, and for each radius directions and
inner and outer ellipsoid. -/
structure EllData where
  particles : List (Particle ℝ)
  center : Vec ℝ
  bins : List (Frame × Axes × Axes)

/-- A divisor is zero when testing the particles, helper_class.pyx:290-296 (the inner ellipsoid is
tested only for particles inside the outer one), or when dividing the mass of a particle in the shell by
the volume of the shell, helper_class.pyx:303. -/
def DivisionByZero (ps : List (Particle ℝ)) (center : Vec ℝ) (bins : List (Frame × Axes × Axes)) : Prop :=
  ∃ bin ∈ bins, ∃ p ∈ ps, bin.1.major = 0 ∨ bin.1.inter = 0 ∨ bin.1.minor = 0 ∨
    bin.2.2.a = 0 ∨ bin.2.2.b = 0 ∨ bin.2.2.c = 0 ∨
    (level bin.1 center bin.2.2 p.pos < 1 ∧ (bin.2.1.a = 0 ∨ bin.2.1.b = 0 ∨ bin.2.1.c = 0)) ∨
    (level bin.1 center bin.2.2 p.pos < 1 ∧ level bin.1 center bin.2.1 p.pos ≥ 1 ∧
      4 / 3 * Real.pi * bin.2.2.a * bin.2.2.b * bin.2.2.c -
        4 / 3 * Real.pi * bin.2.1.a * bin.2.1.b * bin.2.1.c = 0)

open Classical in
/-- Body of the parallel loop for one object, dens_profs_algos.pyx:212-217; the slot is `none` after a
ZeroDivisionError.  The scratch array `xyz_obj_princ` is written before it is read and left out. -/
noncomputable def ellBody (L : ℝ) (o : EllData) :
    List (Action DensScratch (Option (List (Option ℝ)))) :=
  let size := o.particles.length
  (o.particles.zipIdx.map fun pn => fun x =>
    ({ x.1 with xyz := x.1.xyz.set pn.2 pn.1.pos, m := x.1.m.set pn.2 pn.1.mass }, x.2)) ++
  [fun x => ({ x.1 with
      xyz := cyRespectPBCNoRef (x.1.xyz.take size) L ++ x.1.xyz.drop size }, x.2),
   fun x =>
    let ps := List.zipWith Particle.mk (x.1.xyz.take size) (x.1.m.take size)
    if DivisionByZero ps o.center o.bins then (x.1, none)
    else
      let r := densProfEll ps o.center o.bins x.1.shell
      ({ x.1 with shell := r.2 }, some r.1)]

/-- Conversion of a row to output units, cosmic_base_class.pyx:864, 949-953; NaN stays NaN. -/
noncomputable def ellOut (c : Cfg ℝ) (row : List (Option ℝ)) : Except Units.Err (List (Option ℝ)) :=
  match internalLM c with
  | .error e => .error e
  | .ok (l, m) =>
    .ok (row.map (Option.map fun p => p * massUnit * (m / massUnit / c.outM) * (l / c.outL) ^ (-3 : Int)))

/-- `estDensProfs` with `direct_binning = True, spherical = False`: possible outcomes.  Entries `none`
are NaN. -/
inductive EstDensProfsEll (c : Cfg ℝ) (choose : Nat → List Nat) (limit : Nat) (o : Obj)
    (radii : List ℝ) (sel : List Int) : Except EllErr (List (List (Option ℝ))) → Prop
  | rejected (e : Err) (h : selectEll o sel = .error e) :
      EstDensProfsEll c choose limit o radii sel (.error (.base e))
  | shapes (parts : List (List (Particle ℝ))) (h : selectEll o sel = .ok parts) :
      EstDensProfsEll c choose limit o radii sel (.error .shapes)
  | fewRadii (parts : List (List (Particle ℝ))) (h : selectEll o sel = .ok parts)
      (hr : radii.length < 3) : EstDensProfsEll c choose limit o radii sel (.error .value)
  | diverges (parts : List (List (Particle ℝ))) (h : selectEll o sel = .ok parts)
      (hr : 3 ≤ radii.length)
      (hc : parts.mapM (centreOf choose limit o.box o.center) = none) :
      EstDensProfsEll c choose limit o radii sel (.error (.base .recursion))
  | divides (parts : List (List (Particle ℝ))) (h : selectEll o sel = .ok parts)
      (hr : 3 ≤ radii.length)
      (centers : List (Vec ℝ)) (hc : parts.mapM (centreOf choose limit o.box o.center) = some centers)
      (bins : List (List (Frame × Axes × Axes)))
      (hb : bins.length = parts.length ∧ ∀ b ∈ bins, b.length = radii.length)
      (data : List EllData)
      (hd : data = List.zipWith (fun (pc : List (Particle ℝ) × Vec ℝ) b => ⟨pc.1, pc.2, b⟩)
        (parts.zip centers) bins)
      (largest : Nat) (hl : ∀ ps ∈ parts, ps.length ≤ largest)
      (ws : List (Step Nat Nat DensScratch (Option (List (Option ℝ)))))
      (ex : Execution (fun p => (data[p]?.map (ellBody o.box)).getD []) (List.range data.length) ws)
      (hout : (List.range parts.length).mapM (runSteps ws
        ⟨fun _ => ⟨List.replicate largest 0, List.replicate largest 0, List.replicate largest 0⟩,
          fun _ => some []⟩).out = none) :
      EstDensProfsEll c choose limit o radii sel (.error .zeroDivision)
  | finished (parts : List (List (Particle ℝ))) (h : selectEll o sel = .ok parts)
      (hr : 3 ≤ radii.length)
      (centers : List (Vec ℝ)) (hc : parts.mapM (centreOf choose limit o.box o.center) = some centers)
      (bins : List (List (Frame × Axes × Axes)))
      (hb : bins.length = parts.length ∧ ∀ b ∈ bins, b.length = radii.length)
      (data : List EllData)
      (hd : data = List.zipWith (fun (pc : List (Particle ℝ) × Vec ℝ) b => ⟨pc.1, pc.2, b⟩)
        (parts.zip centers) bins)
      (largest : Nat) (hl : ∀ ps ∈ parts, ps.length ≤ largest)
      (ws : List (Step Nat Nat DensScratch (Option (List (Option ℝ)))))
      (ex : Execution (fun p => (data[p]?.map (ellBody o.box)).getD []) (List.range data.length) ws)
      (rows out : List (List (Option ℝ)))
      (hrows : (List.range parts.length).mapM (runSteps ws
        ⟨fun _ => ⟨List.replicate largest 0, List.replicate largest 0, List.replicate largest 0⟩,
          fun _ => some []⟩).out = some rows)
      (hout : rows.mapM (fun row => (ellOut c row).toOption) = some out) :
      EstDensProfsEll c choose limit o radii sel (.ok out)

end Verif.Api
