import Verif.Api.Kernel
import Verif.Api.Ell
import Verif.Api.Shapes
import Verif.Api.ShapesProps
import Verif.Shapes.Similar

/-!
# Output units (C138)

Any two output unit systems (with the same Hubble parameter): whatever a call can return with the one, it can return with the
other, as the same lengths, masses and densities.
-/

namespace Verif.Api

open Verif.Units Verif.Catalogue Verif.Periodic Verif.Binning Verif.Par
open Verif.Shapes (Solver Morph report)

/-! ## Specification -/

/-- The number which denotes in the units of `c'` the length denoted by `x` in the units of `c`. -/
noncomputable def sameLength (c c' : Cfg ℝ) (x : ℝ) : ℝ := x * c.outL / c'.outL

/-- The same for masses. -/
noncomputable def sameMass (c c' : Cfg ℝ) (x : ℝ) : ℝ := x * c.outM / c'.outM

/-- The same for densities. -/
noncomputable def sameDensity (c c' : Cfg ℝ) (x : ℝ) : ℝ := x * (c.outM / c.outL ^ 3) / (c'.outM / c'.outL ^ 3)

/-- The same for an entry of a shape catalogue, of which only the size is a length. -/
noncomputable def sameEntry (c c' : Cfg ℝ) (e : ShapeEntry) : ShapeEntry := { e with d := e.d.map (sameLength c c') }

/-! ## Theorems -/

section
variable (c c' : Cfg ℝ) (hc : c.Pos) (hc' : c'.Pos) (hh : c'.h = c.h)
include hc hc' hh

theorem length_conv (x l : ℝ) : x * (l / c'.outL) = sameLength c c' (x * (l / c.outL)) := by
  have := hc.outL.ne'
  have := hc'.outL.ne'
  unfold sameLength
  field_simp

theorem mass_conv (x m : ℝ) : x * (m / c'.outM) = sameMass c c' (x * (m / c.outM)) := by
  have := hc.outM.ne'
  have := hc'.outM.ne'
  unfold sameMass
  field_simp

theorem density_conv (p l m : ℝ) : p * massUnit * (m / massUnit / c'.outM) * (l / c'.outL) ^ (-3 : Int) =
    sameDensity c c' (p * massUnit * (m / massUnit / c.outM) * (l / c.outL) ^ (-3 : Int)) := by
  have := hc.outM.ne'
  have := hc'.outM.ne'
  have := hc.outL.ne'
  have := hc'.outL.ne'
  have h4 : (massUnit : ℝ) ≠ 0 := by unfold massUnit; positivity
  unfold sameDensity
  rw [zpow_neg, zpow_neg, div_zpow, div_zpow]
  norm_cast
  field_simp

theorem estOut_conv (row : List ℝ) : estOut c' row = (estOut c row).map (List.map (sameDensity c c')) := by
  simp only [estOut, internalLM_eq, hh, Except.map, List.map_map, Except.ok.injEq]
  apply List.map_congr_left
  intro p _
  exact density_conv c c' hc hc' hh p _ _

/-- C138. Positions and masses. -/
theorem C138_positions (o : Obj) : getXYZMasses c' o =
    (getXYZMasses c o).map fun r => (r.1.map fun x a => sameLength c c' (x a), r.2.map (sameMass c c')) := by
  simp only [getXYZMasses, internalLM_eq, hh, Except.map, List.map_map, Except.ok.injEq, Prod.mk.injEq]
  constructor
  · apply List.map_congr_left
    intro p _
    funext a
    exact length_conv c c' hc hc' hh _ _
  · apply List.map_congr_left
    intro p _
    exact mass_conv c c' hc hc' hh _ _

/-- C138. Radii. -/
theorem C138_radii (o : Obj) : getR200 c' o = (getR200 c o).map (List.map (sameLength c c')) := by
  simp only [getR200, internalLM_eq, hh, Except.map, List.map_map, Except.ok.injEq]
  apply List.map_congr_left
  intro p _
  exact length_conv c c' hc hc' hh _ _

variable (choose : Nat → List Nat) (limit : Nat) (o : Obj) (sel : List Int)

/-- C138. Masses and centres, for all objects and selections; errors stay the same. -/
theorem C138_centres (out : Except Err (List (Vec ℝ × ℝ))) (hrun : GetMassesCenters c choose limit o sel out) :
    GetMassesCenters c' choose limit o sel
      (out.map (List.map fun x => (fun a => sameLength c c' (x.1 a), sameMass c c' x.2))) := by
  cases hrun with
  | rejected e h => exact .rejected e h
  | diverges parts h hd => exact .diverges parts h hd
  | finished parts h centers hcen ws ex l m hu =>
    have hu' : internalLM c' = .ok (l, m) := by rw [internalLM_eq, hh, ← internalLM_eq, hu]
    have := GetMassesCenters.finished (c := c') parts h centers hcen ws ex l m hu'
    simp only [length_conv c c' hc hc' hh, mass_conv c c' hc hc' hh] at this
    simpa only [Except.map, List.map_zipWith] using this

/-- C138. Density profiles in spherical shells. -/
theorem C138_profiles (radii : List ℝ) (out : Except Err (List (List ℝ)))
    (hrun : EstDensProfs c choose limit o radii sel out) :
    EstDensProfs c' choose limit o radii sel (out.map (List.map (List.map (sameDensity c c')))) := by
  cases hrun with
  | rejected e h => exact .rejected e h
  | noRadii parts h he => exact .noRadii parts h he
  | diverges parts h hd => exact .diverges parts h hd
  | finished parts h edges he centers hcen r200 hr data hd largest hl ws ex out hout =>
    refine .finished parts h edges he centers hcen r200 hr data hd largest hl ws ex _ ?_
    simp only [estOut_conv c c' hc hc' hh]
    have := congrArg (Option.map (List.map (List.map (sameDensity c c')))) hout
    rw [← Verif.Shapes.mapM_map_result] at this
    rw [← Option.map_some, ← this]
    congr 1

/-- C138. Kernel-based density profiles. -/
theorem C138_kernel (radii : List ℝ) (out : Except KernelErr (List (List ℝ)))
    (hrun : EstDensProfsKernel c choose limit o radii sel out) :
    EstDensProfsKernel c' choose limit o radii sel (out.map (List.map (List.map (sameDensity c c')))) := by
  cases hrun with
  | rejected e h => exact .rejected e h
  | raises parts h r200 hr e hl => exact .raises parts h r200 hr e hl
  | finished parts h r200 hr rows hl out hout =>
    refine .finished parts h r200 hr rows hl _ ?_
    simp only [estOut_conv c c' hc hc' hh]
    have := congrArg (Option.map (List.map (List.map (sameDensity c c')))) hout
    rw [← Verif.Shapes.mapM_map_result] at this
    rw [← Option.map_some, ← this]
    congr 1

theorem ellOut_conv (row : List (Option ℝ)) :
    ellOut c' row = (ellOut c row).map (List.map (Option.map (sameDensity c c'))) := by
  simp only [ellOut, internalLM_eq, hh, Except.map, List.map_map, Except.ok.injEq]
  apply List.map_congr_left
  intro p _
  simp only [Function.comp_apply, Option.map_map]
  congr 1
  funext x
  exact density_conv c c' hc hc' hh x _ _

/-- C138. Density profiles in ellipsoidal shells; NaN stays NaN. -/
theorem C138_ellipsoids (radii : List ℝ) (out : Except EllErr (List (List (Option ℝ))))
    (hrun : EstDensProfsEll c choose limit o radii sel out) :
    EstDensProfsEll c' choose limit o radii sel (out.map (List.map (List.map (Option.map (sameDensity c c'))))) := by
  cases hrun with
  | rejected e h => exact .rejected e h
  | shapes parts h => exact .shapes parts h
  | fewRadii parts h hr => exact .fewRadii parts h hr
  | diverges parts h hr hd => exact .diverges parts h hr hd
  | divides parts h hr centers hcen bins hb data hd largest hl ws ex hout =>
    exact .divides parts h hr centers hcen bins hb data hd largest hl ws ex hout
  | finished parts h hr centers hcen bins hb data hd largest hl ws ex rows out hrows hout =>
    refine .finished parts h hr centers hcen bins hb data hd largest hl ws ex rows _ hrows ?_
    simp only [ellOut_conv c c' hc hc' hh]
    have := congrArg (Option.map (List.map (List.map (Option.map (sameDensity c c'))))) hout
    rw [← Verif.Shapes.mapM_map_result] at this
    rw [← Option.map_some, ← this]
    congr 1

/-- C138. Shapes, local and global: only sizes are lengths. -/
theorem C138_shapes (sol : Solver) (katz : Katz) (whole : Bool) (out : Except ShapeErr (List (List ShapeEntry)))
    (hrun : GetShapeCat c sol choose limit o katz whole sel out) :
    GetShapeCat c' sol choose limit o katz whole sel (out.map (List.map (List.map (sameEntry c c')))) := by
  cases hrun with
  | rejected e h => exact .rejected e h
  | diverges parts h hd => exact .diverges parts h hd
  | looped parts h centers hcen r200 hr data hd largest hl ws ex l m hu out hout =>
    have hu' : internalLM c' = .ok (l, m) := by rw [internalLM_eq, hh, ← internalLM_eq, hu]
    refine .looped parts h centers hcen r200 hr data hd largest hl ws ex l m hu' _ ?_
    rw [hout]
    cases loopRows (katz.settings sol o.box) (kindOf whole) largest parts.length ws with
    | none => rfl
    | some rows =>
      simp only [Except.map, List.map_map, Except.ok.injEq]
      apply List.map_congr_left
      intro row _
      simp only [Function.comp_apply, List.map_map]
      apply List.map_congr_left
      intro m _
      simp only [Function.comp_apply, sameEntry, entryOf, Option.map_map]
      congr 2
      funext x
      exact (length_conv c c' hc hc' hh x l).symm

end

/-- The default units with outputs in kpc/h and solar masses / h instead of Mpc/h and 10^10 solar masses / h: a length of 2
becomes 2000, a mass of 3 becomes 3 * 10^10, a density of 7 becomes 70. -/
example (c c' : Cfg ℝ) (hc : c.Pos) (hc' : c'.Pos) (hL : c.outL = 1000 * c'.outL) (hM : c.outM = 10 ^ 10 * c'.outM) :
    sameLength c c' 2 = 2000 ∧ sameMass c c' 3 = 3 * 10 ^ 10 ∧ sameDensity c c' 7 = 70 := by
  have h1 := hc'.outL.ne'
  have h2 := hc'.outM.ne'
  unfold sameLength sameMass sameDensity
  rw [hL, hM]
  refine ⟨?_, ?_, ?_⟩ <;> field_simp <;> norm_num

/-- Two such unit systems, and the radius 1 of an object in both. -/
example : ∃ c c' : Cfg ℝ, c.Pos ∧ c'.Pos ∧ c'.h = c.h ∧ ∃ o, construct c ⟨[![1, 1, 1]], [1], .nested [[0]], .array [1], 10, 1,
      .com⟩ = .ok o ∧ getR200 c o = .ok [1] ∧ getR200 c' o = .ok [1000] := by
  have hpos : (0 : ℝ) < mpch 1 := by unfold mpch; norm_num
  refine ⟨⟨mpch 1, 1, 1, 1, mpch 1, 10 ^ 10, 1⟩, ⟨mpch 1, 1, 1, 1, mpch 1 / 1000, 1, 1⟩, ?_, ?_, rfl, ?_⟩
  · constructor <;> dsimp only <;> first | exact hpos | norm_num
  · constructor <;> dsimp only <;> first | exact hpos | positivity | norm_num
  · refine ⟨_, construct_eq _ [![1, 1, 1]] [1] 10 [([0], 1)] 1 .com rfl (by simp), ?_, ?_⟩ <;>
    · simp only [getR200, internalLM_eq, resolved]
      have := hpos.ne'
      simp [this]
      try field_simp

end Verif.Api
