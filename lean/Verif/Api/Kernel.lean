import Verif.Api.DensProps
import Verif.Binning.Kernel

/-!
# Kernel-based density profiles of objects made from arrays: model

`estDensProfs(..., direct_binning = False)` of `DensShapeProfs` and `DensProfs`
(`cosmic_profiles/dens_profs/dens_profs_classes.pyx:141-160`,
`cosmic_profiles/common/cosmic_base_class.pyx:868-953`,
`cosmic_profiles/dens_profs/dens_profs_algos.pyx:220-283`,
`cosmic_profiles/cython_helpers/helper_class.pyx:413-428`).

Real arithmetic (`calcKTilde` works in single precision); radii are positive (for radius 0 the code
produces NaN).
-/

namespace Verif.Api

open Verif.Units Verif.Catalogue Verif.Periodic Verif.Binning Verif.Par

/-- Exceptions of this call: those of the selection and of finding centres, and ZeroDivisionError. -/
inductive KernelErr
  | base (e : Err)
  | zeroDivision
  deriving DecidableEq

/-- `dens_profs[p][r_idx] += m_obj[n]*calcKTilde(...)/(hs[n]**3)`, dens_profs_algos.pyx:278-279, for a
particle `(mass, distance)`.  The slot is `none` once a division by a width of 0 raised
ZeroDivisionError (Cython checks divisors). -/
noncomputable def kernelStep (r200 r : ℝ) (md : ℝ × ℝ) : Action Unit (Option ℝ) := fun x =>
  (x.1, x.2.bind fun acc =>
    if kernelWidth r200 md.2 = 0 then none
    else some (acc + md.1 * kTilde r md.2 (kernelWidth r200 md.2) / kernelWidth r200 md.2 ^ 3))

/-- Body of the parallel loop over radii, dens_profs_algos.pyx:277-279. -/
noncomputable def kernelBody (r200 r : ℝ) (mds : List (ℝ × ℝ)) : List (Action Unit (Option ℝ)) :=
  mds.map (kernelStep r200 r)

/-- Masses and distances from the centre, dens_profs_algos.pyx:270-274. -/
noncomputable def massDistances (L : ℝ) (center : Vec ℝ) (ps : List (Particle ℝ)) : List (ℝ × ℝ) :=
  (List.zipWith Particle.mk (cyRespectPBCNoRef (ps.map fun p => p.pos) L)
    (ps.map fun p => p.mass)).map fun p => (p.mass, radius center p)

/-- The loop over objects, dens_profs_algos.pyx:264-279: possible outcomes for the remaining objects
(particles and R200).  The rows of the result are initially zero. -/
inductive KernelLoop (choose : Nat → List Nat) (limit : Nat) (L : ℝ) (center : Center)
    (radii : List ℝ) : List (List (Particle ℝ) × ℝ) → Except KernelErr (List (List ℝ)) → Prop
  | nil : KernelLoop choose limit L center radii [] (.ok [])
  | diverges (ps : List (Particle ℝ)) (r200 : ℝ) (rest : List (List (Particle ℝ) × ℝ))
      (h : centreOf choose limit L center ps = none) :
      KernelLoop choose limit L center radii ((ps, r200) :: rest) (.error (.base .recursion))
  | raises (ps : List (Particle ℝ)) (r200 : ℝ) (rest : List (List (Particle ℝ) × ℝ)) (v : Vec ℝ)
      (h : centreOf choose limit L center ps = some v)
      (ws : List (Step Nat Nat Unit (Option ℝ)))
      (ex : Execution (fun i => (radii[i]?.map fun r =>
        kernelBody r200 (r * r200) (massDistances L v ps)).getD []) (List.range radii.length) ws)
      (hrow : (List.range radii.length).mapM (runSteps ws ⟨fun _ => (), fun _ => some 0⟩).out = none) :
      KernelLoop choose limit L center radii ((ps, r200) :: rest) (.error .zeroDivision)
  | next (ps : List (Particle ℝ)) (r200 : ℝ) (rest : List (List (Particle ℝ) × ℝ)) (v : Vec ℝ)
      (h : centreOf choose limit L center ps = some v)
      (ws : List (Step Nat Nat Unit (Option ℝ)))
      (ex : Execution (fun i => (radii[i]?.map fun r =>
        kernelBody r200 (r * r200) (massDistances L v ps)).getD []) (List.range radii.length) ws)
      (row : List ℝ)
      (hrow : (List.range radii.length).mapM (runSteps ws ⟨fun _ => (), fun _ => some 0⟩).out =
        some row)
      (res : Except KernelErr (List (List ℝ)))
      (hrest : KernelLoop choose limit L center radii rest res) :
      KernelLoop choose limit L center radii ((ps, r200) :: rest) (res.map (row :: ·))

/-- `estDensProfs` with `direct_binning = False`: possible outcomes. -/
inductive EstDensProfsKernel (c : Cfg ℝ) (choose : Nat → List Nat) (limit : Nat) (o : Obj)
    (radii : List ℝ) (sel : List Int) : Except KernelErr (List (List ℝ)) → Prop
  | rejected (e : Err) (h : selectParticles o sel = .error e) :
      EstDensProfsKernel c choose limit o radii sel (.error (.base e))
  | raises (parts : List (List (Particle ℝ))) (h : selectParticles o sel = .ok parts)
      (r200 : List ℝ) (hr : fancy o.r200 (sel.map Int.toNat) = some r200) (e : KernelErr)
      (hl : KernelLoop choose limit o.box o.center radii (parts.zip r200) (.error e)) :
      EstDensProfsKernel c choose limit o radii sel (.error e)
  | finished (parts : List (List (Particle ℝ))) (h : selectParticles o sel = .ok parts)
      (r200 : List ℝ) (hr : fancy o.r200 (sel.map Int.toNat) = some r200)
      (rows : List (List ℝ))
      (hl : KernelLoop choose limit o.box o.center radii (parts.zip r200) (.ok rows))
      (out : List (List ℝ))
      (hout : rows.mapM (fun row => (estOut c row).toOption) = some out) :
      EstDensProfsKernel c choose limit o radii sel (.ok out)

end Verif.Api
