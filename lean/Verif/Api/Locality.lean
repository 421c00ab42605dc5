import Verif.Api.Moved
import Verif.Api.KernelProps
import Verif.Api.ShapesProps

/-!
# Objects do not influence each other (C148)

Masses, centres, density profiles and shapes of an object depend on its own particles and R200 only: not on the other objects of the
catalogue, on the other particles of the simulation, nor on which other objects are selected - unless one of these makes the call fail.
-/

set_option linter.unusedSectionVars false

namespace Verif.Api

open Verif.Units Verif.Catalogue Verif.Periodic Verif.Binning
open Verif.Shapes (Solver aloneShapes)

/-! ## Specification -/

/-- In two simulations with their catalogues, object number `z` of the one and object number `z'` of the other (counting objects with at least
`minPtcs` particles) consist of particles with the same positions and masses, in the same order, and have the same R200. -/
def SameObjectIn (minPtcs : Int) (xyz : List (Vec ℝ)) (masses : List ℝ) (objs : List (List Nat × ℝ)) (z : Int)
    (xyz' : List (Vec ℝ)) (masses' : List ℝ) (objs' : List (List Nat × ℝ)) (z' : Int) : Prop :=
  ∃ obj obj', (resolved minPtcs objs)[z.toNat]? = some obj ∧ (resolved minPtcs objs')[z'.toNat]? = some obj' ∧
    particlesOf xyz masses obj.1 = particlesOf xyz' masses' obj'.1 ∧ obj.2 = obj'.2

/-! ## Proofs -/

theorem prepared_of (c : Cfg ℝ) (xyz : List (Vec ℝ)) (masses : List ℝ) (box : ℝ)
    (objs : List (List Nat × ℝ)) (minPtcs : Int) (hmin : 1 ≤ minPtcs) (center : Center) (hlen : xyz.length = masses.length)
    (hobjs : objs ≠ []) (hexist : ∀ o ∈ objs, ∀ i ∈ o.1, i < xyz.length) (o : Obj)
    (ho : construct c ⟨xyz, masses, .nested (objs.map Prod.fst), .array (objs.map Prod.snd), box, minPtcs, center⟩ = .ok o)
    (sel : List Int) (hsel : GoodSelection sel (resolved minPtcs objs).length) :
    o.box = box * (c.inL / mpch c.h) ∧ o.center = center ∧
    ∃ parts r200, selectParticles o sel = .ok parts ∧ fancy o.r200 (sel.map Int.toNat) = some r200 ∧
      r200.length = parts.length ∧ parts.length = sel.length ∧
      ∀ (k : Nat) (z : Int) (obj : List Nat × ℝ), sel[k]? = some z → (resolved minPtcs objs)[z.toNat]? = some obj →
        (parts.zip r200)[k]? = some ((particlesOf xyz masses obj.1).map (scale (c.inL / mpch c.h) (c.inM / msunh10 c.h)),
          obj.2 * (c.inL / mpch c.h)) := by
  rw [construct_eq c xyz masses box objs minPtcs center hlen hobjs] at ho
  have ho := Except.ok.inj ho
  obtain ⟨parts, hsp, hplen, hpk⟩ := selected_of (c.inL / mpch c.h) (c.inM / msunh10 c.h) xyz masses objs minPtcs hmin hlen hexist o
    (by rw [← ho]) (by rw [← ho]) (by rw [← ho]) (by rw [← ho]) sel hsel
  have hor : o.r200 = (resolved minPtcs objs).map fun o => o.2 * (c.inL / mpch c.h) := by rw [← ho]
  obtain ⟨r200, hr⟩ : ∃ r, fancy o.r200 (sel.map Int.toNat) = some r := by
    apply mapM_exists
    intro i hi
    obtain ⟨z, hz, rfl⟩ := List.mem_map.1 hi
    have := hsel.2.2 z hz
    refine ⟨_, List.getElem?_eq_getElem ?_⟩
    rw [hor, List.length_map]
    omega
  have hrl : r200.length = sel.length := by
    rw [(mapM_some_get _ _ _ hr).1]; simp
  refine ⟨by rw [← ho], by rw [← ho], parts, r200, hsp, hr, by omega, hplen, ?_⟩
  intro k z obj hk hobj
  have h1 := (hpk k z obj hk hobj).1
  have h2 : r200[k]? = some (obj.2 * (c.inL / mpch c.h)) := by
    obtain ⟨b, hb, hF⟩ := (mapM_some_get _ _ _ hr).2 k z.toNat (by rw [List.getElem?_map, hk]; rfl)
    rw [hor, List.getElem?_map, hobj] at hF
    rw [hb, ← hF]
    rfl
  rw [List.getElem?_zip_eq_some]
  exact ⟨h1, h2⟩

theorem prepared (c : Cfg ℝ) (xyz : List (Vec ℝ)) (masses : List ℝ) (box : ℝ)
    (objs : List (List Nat × ℝ)) (minPtcs : Int) (hmin : 1 ≤ minPtcs) (center : Center) (hs : Sensible xyz masses box objs) (o : Obj)
    (ho : construct c ⟨xyz, masses, .nested (objs.map Prod.fst), .array (objs.map Prod.snd), box, minPtcs, center⟩ = .ok o)
    (sel : List Int) (hsel : GoodSelection sel (resolved minPtcs objs).length) :
    o.box = box * (c.inL / mpch c.h) ∧ o.center = center ∧
    ∃ parts r200, selectParticles o sel = .ok parts ∧ fancy o.r200 (sel.map Int.toNat) = some r200 ∧
      r200.length = parts.length ∧ parts.length = sel.length ∧
      ∀ (k : Nat) (z : Int) (obj : List Nat × ℝ), sel[k]? = some z → (resolved minPtcs objs)[z.toNat]? = some obj →
        (parts.zip r200)[k]? = some ((particlesOf xyz masses obj.1).map (scale (c.inL / mpch c.h) (c.inM / msunh10 c.h)),
          obj.2 * (c.inL / mpch c.h)) :=
  prepared_of c xyz masses box objs minPtcs hmin center hs.lengths hs.objects hs.exist o ho sel hsel

theorem two_stage {α β γ : Type} (F : α → Option (Option β)) (g : β → γ) (l : List α) :
    (l.mapM F).bind (fun xs => (xs.mapM id).map (List.map g)) = l.mapM fun a => (F a).bind fun x => x.map g := by
  induction l with
  | nil => rfl
  | cons a l ih =>
    rw [List.mapM_cons, List.mapM_cons, ← ih]
    cases hF : F a with
    | none => rfl
    | some x =>
      cases hl : l.mapM F with
      | none => cases x <;> rfl
      | some xs =>
        simp only [Option.bind_eq_bind, Option.bind_some, Option.pure_def, List.mapM_cons, id]
        cases x with
        | none => rfl
        | some b =>
          cases hx : xs.mapM id <;> simp [hx]

theorem mapM_single {α β : Type} (F : α → Option β) (a : α) : [a].mapM F = (F a).map fun b => [b] := by
  cases h : F a <;> simp [h]

/-- Shapes of one object (`none`: the call fails because of it). -/
noncomputable def shapeRow (c : Cfg ℝ) (sol : Solver) (choose : Nat → List Nat) (limit : Nat) (L : ℝ) (center : Center)
    (katz : Katz) (whole : Bool) (pr : List (Particle ℝ) × ℝ) : Option (List ShapeEntry) :=
  ((shapeCentre choose limit L center pr.1).map fun v =>
    aloneShapes (katz.settings sol L) (kindOf whole) ⟨pr.1.map fun p => ⟨p.pos, 0, p.mass⟩, v, pr.2⟩).bind fun x =>
      x.map fun row => row.map (entryOf (mpch c.h / c.outL))

theorem shapesOf_rows (c : Cfg ℝ) (sol : Solver) (choose : Nat → List Nat) (limit : Nat) (L : ℝ) (center : Center)
    (katz : Katz) (whole : Bool) (objs : List (List (Particle ℝ) × ℝ)) :
    (shapesOf c sol choose limit L center katz whole objs).toOption =
      objs.mapM (shapeRow c sol choose limit L center katz whole) := by
  unfold shapeRow
  rw [← two_stage]
  unfold shapesOf
  cases objs.mapM (fun pr => (shapeCentre choose limit L center pr.1).map fun v =>
      aloneShapes (katz.settings sol L) (kindOf whole) ⟨pr.1.map fun p => ⟨p.pos, 0, p.mass⟩, v, pr.2⟩) with
  | none => rfl
  | some xs => cases h : xs.mapM id <;> simp [h, Except.toOption]

/-- Density profile of one object. -/
noncomputable def profileRow (c : Cfg ℝ) (choose : Nat → List Nat) (limit : Nat) (L : ℝ) (center : Center) (edges : List ℝ)
    (pr : List (Particle ℝ) × ℝ) : Option (List ℝ) :=
  ((centreOf choose limit L center pr.1).map fun v =>
      (estOut c (aloneProfile L edges ⟨pr.1, v, pr.2⟩)).toOption).bind fun x => x.map id

theorem profilesOf_rows (c : Cfg ℝ) (choose : Nat → List Nat) (limit : Nat) (L : ℝ) (center : Center) (edges : List ℝ)
    (objs : List (List (Particle ℝ) × ℝ)) :
    (profilesOf c choose limit L center edges objs).toOption = objs.mapM (profileRow c choose limit L center edges) := by
  unfold profileRow
  rw [← two_stage]
  unfold profilesOf
  cases h : objs.mapM (fun pr => (centreOf choose limit L center pr.1).map fun v =>
      (estOut c (aloneProfile L edges ⟨pr.1, v, pr.2⟩)).toOption) with
  | none => rfl
  | some xs =>
    obtain ⟨ys, hys⟩ : ∃ ys, xs.mapM id = some ys := by
      apply mapM_exists
      intro x hx
      obtain ⟨k, hk⟩ := List.mem_iff_getElem?.1 hx
      obtain ⟨hl, hg⟩ := mapM_some_get _ _ _ h
      have hk' : k < objs.length := by rw [← hl]; exact (List.getElem?_eq_some_iff.1 hk).1
      obtain ⟨b, hb, hF⟩ := hg k _ (List.getElem?_eq_getElem hk')
      rw [hk] at hb
      obtain rfl := Option.some.inj hb
      cases hc : centreOf choose limit L center (objs[k]).1 with
      | none => rw [hc] at hF; cases hF
      | some v =>
        rw [hc] at hF
        obtain rfl := Option.some.inj hF
        simp only [estOut, internalLM_eq]
        exact ⟨_, rfl⟩
    simp [hys, Except.toOption]

/-- Mass and centre of one object. -/
noncomputable def massRow (c : Cfg ℝ) (choose : Nat → List Nat) (limit : Nat) (L : ℝ) (center : Center)
    (ps : List (Particle ℝ)) : Option (Vec ℝ × ℝ) :=
  ((centreOf choose limit L center ps).map fun v => some (v, totalMass ps)).bind fun x => x.map
    fun x => (fun a => recentreAxis L (x.1 a) * (mpch c.h / c.outL), x.2 * (msunh10 c.h / c.outM))

theorem massesOf_rows (c : Cfg ℝ) (choose : Nat → List Nat) (limit : Nat) (L : ℝ) (center : Center)
    (parts : List (List (Particle ℝ))) :
    (massesOf c choose limit L center parts).toOption = parts.mapM (massRow c choose limit L center) := by
  unfold massesOf
  induction parts with
  | nil => rfl
  | cons ps parts ih =>
    rw [List.mapM_cons, List.mapM_cons, ← ih]
    unfold massRow
    cases centreOf choose limit L center ps with
    | none => rfl
    | some v =>
      cases parts.mapM (fun ps => (centreOf choose limit L center ps).map fun v => (v, totalMass ps)) <;>
        simp [Except.toOption]

open Classical in
/-- Kernel-based profile of one object. -/
noncomputable def kernelRow (c : Cfg ℝ) (choose : Nat → List Nat) (limit : Nat) (L : ℝ) (center : Center) (radii : List ℝ)
    (pr : List (Particle ℝ) × ℝ) : Option (List ℝ) :=
  (centreOf choose limit L center pr.1).bind fun v =>
    if radii ≠ [] ∧ ∃ md ∈ massDistances L v pr.1, kernelWidth pr.2 md.2 = 0 then none
    else (estOut c (radii.map fun r => densKernel pr.2 (massDistances L v pr.1) (r * pr.2))).toOption

theorem kernelOf_rows (c : Cfg ℝ) (choose : Nat → List Nat) (limit : Nat) (L : ℝ) (center : Center) (radii : List ℝ)
    (objs : List (List (Particle ℝ) × ℝ)) :
    ((kernelOf choose limit L center radii objs).bind fun rows =>
      Except.ok (ε := KernelErr) ((rows.mapM fun row => (estOut c row).toOption).getD [])).toOption =
      objs.mapM (kernelRow c choose limit L center radii) := by
  have hest : ∀ row : List ℝ, ∃ y, (estOut c row).toOption = some y := fun row => by
    simp only [estOut, internalLM_eq]
    exact ⟨_, rfl⟩
  induction objs with
  | nil => rfl
  | cons pr objs ih =>
    rw [List.mapM_cons, ← ih]
    unfold kernelRow
    conv_lhs => unfold kernelOf
    cases hc : centreOf choose limit L center pr.1 with
    | none => rfl
    | some v =>
      by_cases hz : radii ≠ [] ∧ ∃ md ∈ massDistances L v pr.1, kernelWidth pr.2 md.2 = 0
      · simp only [if_pos hz, Option.bind_some]
        rfl
      · simp only [if_neg hz, Option.bind_some]
        obtain ⟨y, hy⟩ := hest (radii.map fun r => densKernel pr.2 (massDistances L v pr.1) (r * pr.2))
        cases hk : kernelOf choose limit L center radii objs with
        | error e => rw [hy]; rfl
        | ok rows =>
          obtain ⟨ys, hys⟩ := mapM_exists (fun row => (estOut c row).toOption) rows fun row _ => hest row
          simp only [Except.map, Except.bind, List.mapM_cons, hy, hys]
          rfl

theorem row_agree {α β : Type} (R : α → Option β) (l l' : List α) (res res' : List β) (h : l.mapM R = some res)
    (h' : l'.mapM R = some res') (k k' : Nat) (a : α) (hk : l[k]? = some a) (hk' : l'[k']? = some a) :
    ∃ b, res[k]? = some b ∧ res'[k']? = some b := by
  obtain ⟨b, hb, hF⟩ := (mapM_some_get _ _ _ h).2 k a hk
  obtain ⟨b', hb', hF'⟩ := (mapM_some_get _ _ _ h').2 k' a hk'
  rw [hF] at hF'
  obtain rfl := Option.some.inj hF'
  exact ⟨b, hb, hb'⟩

section
variable (c : Cfg ℝ)
    (xyz xyz' : List (Vec ℝ)) (masses masses' : List ℝ) (box : ℝ) (objs objs' : List (List Nat × ℝ)) (minPtcs : Int)
    (hmin : 1 ≤ minPtcs) (center : Center) (hs : Sensible xyz masses box objs) (hs' : Sensible xyz' masses' box objs') (o o' : Obj)
    (ho : construct c ⟨xyz, masses, .nested (objs.map Prod.fst), .array (objs.map Prod.snd), box, minPtcs, center⟩ = .ok o)
    (ho' : construct c ⟨xyz', masses', .nested (objs'.map Prod.fst), .array (objs'.map Prod.snd), box, minPtcs, center⟩ = .ok o')
    (sel sel' : List Int) (hsel : GoodSelection sel (resolved minPtcs objs).length)
    (hsel' : GoodSelection sel' (resolved minPtcs objs').length)

section
include hmin hs hs' ho ho' hsel hsel'

theorem both_prepared (k k' : Nat) (z z' : Int) (hk : sel[k]? = some z) (hk' : sel'[k']? = some z')
    (hsame : SameObjectIn minPtcs xyz masses objs z xyz' masses' objs' z') :
    ∃ parts r200 parts' r200' pr, selectParticles o sel = .ok parts ∧ fancy o.r200 (sel.map Int.toNat) = some r200 ∧
      r200.length = parts.length ∧ selectParticles o' sel' = .ok parts' ∧ fancy o'.r200 (sel'.map Int.toNat) = some r200' ∧
      r200'.length = parts'.length ∧ o'.box = o.box ∧ o'.center = o.center ∧
      (parts.zip r200)[k]? = some pr ∧ (parts'.zip r200')[k']? = some pr ∧ parts[k]? = some pr.1 ∧ parts'[k']? = some pr.1 := by
  obtain ⟨hb, hcn, parts, r200, h1, h2, h3, h4, h5⟩ := prepared c xyz masses box objs minPtcs hmin center hs o ho sel hsel
  obtain ⟨hb', hcn', parts', r200', h1', h2', h3', h4', h5'⟩ :=
    prepared c xyz' masses' box objs' minPtcs hmin center hs' o' ho' sel' hsel'
  obtain ⟨obj, obj', e, e', e1, e2⟩ := hsame
  have p1 := h5 k z obj hk e
  have p2 := h5' k' z' obj' hk' e'
  rw [← e1, ← e2] at p2
  exact ⟨parts, r200, parts', r200', _, h1, h2, h3, h1', h2', h3', by rw [hb, hb'], by rw [hcn, hcn'], p1, p2,
    (List.getElem?_zip_eq_some.1 p1).1, (List.getElem?_zip_eq_some.1 p2).1⟩

/-- C148. The shapes of an object depend on its own particles and R200 only: an object which occurs in two simulations has the same shapes
in both, whatever other particles and objects there are and whatever else is selected. -/
theorem C148_shapes_partial (c' : Cfg ℝ) (sol : Solver) (choose : Nat → List Nat) (limit : Nat) (katz : Katz) (whole : Bool)
    (k k' : Nat) (z z' : Int) (hk : sel[k]? = some z) (hk' : sel'[k']? = some z')
    (hsame : SameObjectIn minPtcs xyz masses objs z xyz' masses' objs' z') (res res' : List (List ShapeEntry))
    (hrun : GetShapeCat c' sol choose limit o katz whole sel (.ok res))
    (hrun' : GetShapeCat c' sol choose limit o' katz whole sel' (.ok res')) :
    ∃ row, res[k]? = some row ∧ res'[k']? = some row := by
  obtain ⟨parts, r200, parts', r200', pr, h1, h2, h3, h1', h2', h3', hb, hcn, p1, p2, -, -⟩ := both_prepared c xyz xyz' masses masses' box
    objs objs' minPtcs hmin center hs hs' o o' ho ho' sel sel' hsel hsel' k k' z z' hk hk' hsame
  have e := getShapeCat_fn c' sol choose limit o katz whole sel parts h1 r200 h2 h3 _ hrun
  have e' := getShapeCat_fn c' sol choose limit o' katz whole sel' parts' h1' r200' h2' h3' _ hrun'
  rw [hb, hcn] at e'
  exact row_agree (shapeRow c' sol choose limit o.box o.center katz whole) _ _ res res'
    (by rw [← shapesOf_rows, ← e]; rfl) (by rw [← shapesOf_rows, ← e']; rfl) k k' pr p1 p2

/-- C148. The same for density profiles in spherical shells. -/
theorem C148_profiles_partial (c' : Cfg ℝ) (choose : Nat → List Nat) (limit : Nat) (radii : List ℝ)
    (k k' : Nat) (z z' : Int) (hk : sel[k]? = some z) (hk' : sel'[k']? = some z')
    (hsame : SameObjectIn minPtcs xyz masses objs z xyz' masses' objs' z') (res res' : List (List ℝ))
    (hrun : EstDensProfs c' choose limit o radii sel (.ok res)) (hrun' : EstDensProfs c' choose limit o' radii sel' (.ok res')) :
    ∃ row, res[k]? = some row ∧ res'[k']? = some row := by
  obtain ⟨parts, r200, parts', r200', pr, h1, h2, h3, h1', h2', h3', hb, hcn, p1, p2, -, -⟩ := both_prepared c xyz xyz' masses masses' box
    objs objs' minPtcs hmin center hs hs' o o' ho ho' sel sel' hsel hsel' k k' z z' hk hk' hsame
  obtain ⟨edges, hedges⟩ : ∃ e, sphEdges radii = some e := by
    cases hrun with
    | finished _ _ edges he => exact ⟨edges, he⟩
  have e := estDensProfs_fn c' choose limit o radii edges hedges sel parts h1 r200 h2 h3 _ hrun
  have e' := estDensProfs_fn c' choose limit o' radii edges hedges sel' parts' h1' r200' h2' h3' _ hrun'
  rw [hb, hcn] at e'
  exact row_agree (profileRow c' choose limit o.box o.center edges) _ _ res res'
    (by rw [← profilesOf_rows, ← e]; rfl) (by rw [← profilesOf_rows, ← e']; rfl) k k' pr p1 p2

/-- C148. The same for kernel-based density profiles. -/
theorem C148_kernel_partial (c' : Cfg ℝ) (choose : Nat → List Nat) (limit : Nat) (radii : List ℝ)
    (k k' : Nat) (z z' : Int) (hk : sel[k]? = some z) (hk' : sel'[k']? = some z')
    (hsame : SameObjectIn minPtcs xyz masses objs z xyz' masses' objs' z') (res res' : List (List ℝ))
    (hrun : EstDensProfsKernel c' choose limit o radii sel (.ok res))
    (hrun' : EstDensProfsKernel c' choose limit o' radii sel' (.ok res')) :
    ∃ row, res[k]? = some row ∧ res'[k']? = some row := by
  obtain ⟨parts, r200, parts', r200', pr, h1, h2, h3, h1', h2', h3', hb, hcn, p1, p2, -, -⟩ := both_prepared c xyz xyz' masses masses' box
    objs objs' minPtcs hmin center hs hs' o o' ho ho' sel sel' hsel hsel' k k' z z' hk hk' hsame
  have e := estDensProfsKernel_fn c' choose limit o radii sel parts h1 r200 h2 _ hrun
  have e' := estDensProfsKernel_fn c' choose limit o' radii sel' parts' h1' r200' h2' _ hrun'
  rw [hb, hcn] at e'
  exact row_agree (kernelRow c' choose limit o.box o.center radii) _ _ res res'
    (by rw [← kernelOf_rows, ← e]; rfl) (by rw [← kernelOf_rows, ← e']; rfl) k k' pr p1 p2

/-- C148. The same for masses and centres. -/
theorem C148_centres_partial (c' : Cfg ℝ) (choose : Nat → List Nat) (limit : Nat)
    (k k' : Nat) (z z' : Int) (hk : sel[k]? = some z) (hk' : sel'[k']? = some z')
    (hsame : SameObjectIn minPtcs xyz masses objs z xyz' masses' objs' z') (res res' : List (Vec ℝ × ℝ))
    (hrun : GetMassesCenters c' choose limit o sel (.ok res)) (hrun' : GetMassesCenters c' choose limit o' sel' (.ok res')) :
    ∃ row, res[k]? = some row ∧ res'[k']? = some row := by
  obtain ⟨parts, r200, parts', r200', pr, h1, h2, h3, h1', h2', h3', hb, hcn, -, -, p1, p2⟩ := both_prepared c xyz xyz' masses masses' box
    objs objs' minPtcs hmin center hs hs' o o' ho ho' sel sel' hsel hsel' k k' z z' hk hk' hsame
  have e := getMassesCenters_fn c' choose limit o sel parts h1 _ hrun
  have e' := getMassesCenters_fn c' choose limit o' sel' parts' h1' _ hrun'
  rw [hb, hcn] at e'
  exact row_agree (massRow c' choose limit o.box o.center) _ _ res res'
    (by rw [← massesOf_rows, ← e]; rfl) (by rw [← massesOf_rows, ← e']; rfl) k k' pr.1 p1 p2

end

section
include hmin hs ho hsel

/-- A selected object, and the same object selected alone. -/
theorem alone_prepared : ∃ parts r200, selectParticles o sel = .ok parts ∧ fancy o.r200 (sel.map Int.toNat) = some r200 ∧
    r200.length = parts.length ∧ ∀ pr ∈ parts.zip r200, ∃ z ∈ sel, selectParticles o [z] = .ok [pr.1] ∧
      fancy o.r200 ([z].map Int.toNat) = some [pr.2] := by
  obtain ⟨hb, hcn, parts, r200, h1, h2, h3, h4, h5⟩ := prepared c xyz masses box objs minPtcs hmin center hs o ho sel hsel
  refine ⟨parts, r200, h1, h2, h3, ?_⟩
  intro pr hpr
  obtain ⟨k, hk⟩ := List.mem_iff_getElem?.1 hpr
  have hkl : k < sel.length := by
    have := (List.getElem?_eq_some_iff.1 hk).1
    simp only [List.length_zip] at this
    omega
  have hz := hsel.2.2 sel[k] (List.getElem_mem hkl)
  have hlt : (sel[k]).toNat < (resolved minPtcs objs).length := by omega
  have p := h5 k sel[k] _ (List.getElem?_eq_getElem hkl) (List.getElem?_eq_getElem hlt)
  rw [hk] at p
  obtain ⟨-, -, parts', r200', h1', h2', h3', h4', h5'⟩ := prepared c xyz masses box objs minPtcs hmin center hs o ho [sel[k]]
    ⟨by simp, by simp, by simpa using hz⟩
  have p' := h5' 0 sel[k] _ rfl (List.getElem?_eq_getElem hlt)
  rw [← p] at p'
  obtain ⟨q1, q2⟩ := List.getElem?_zip_eq_some.1 p'
  simp only [List.length_singleton] at h4'
  obtain ⟨a, rfl⟩ := List.length_eq_one_iff.1 h4'
  obtain ⟨b, rfl⟩ := List.length_eq_one_iff.1 h3'
  simp only [List.getElem?_cons_zero, Option.some.injEq] at q1 q2
  subst q1 q2
  exact ⟨sel[k], List.getElem_mem hkl, h1', h2'⟩

/-- C148. A call fails only because of one of the selected objects, for which the call fails also if it alone is selected. -/
theorem C148_shapes_fail (c' : Cfg ℝ) (sol : Solver) (choose : Nat → List Nat) (limit : Nat) (katz : Katz) (whole : Bool)
    (e : ShapeErr) (hrun : GetShapeCat c' sol choose limit o katz whole sel (.error e)) :
    ∃ z ∈ sel, ∀ out, GetShapeCat c' sol choose limit o katz whole [z] out → ∃ e, out = .error e := by
  obtain ⟨parts, r200, h1, h2, h3, h4⟩ := alone_prepared c xyz masses box objs minPtcs hmin center hs o ho sel hsel
  have e1 := congrArg Except.toOption (getShapeCat_fn c' sol choose limit o katz whole sel parts h1 r200 h2 h3 _ hrun)
  rw [shapesOf_rows] at e1
  obtain ⟨pr, hpr, hn⟩ := mapM_none _ _ e1.symm
  obtain ⟨z, hz, q1, q2⟩ := h4 pr hpr
  refine ⟨z, hz, fun out hout => ?_⟩
  have e2 := congrArg Except.toOption (getShapeCat_fn c' sol choose limit o katz whole [z] _ q1 _ q2 rfl _ hout)
  rw [shapesOf_rows] at e2
  simp only [List.zip_cons_cons, List.zip_nil_right] at e2
  rw [mapM_single, hn] at e2
  cases out with
  | error e => exact ⟨e, rfl⟩
  | ok r => cases e2

/-- C148. The same for density profiles. -/
theorem C148_profiles_fail (c' : Cfg ℝ) (choose : Nat → List Nat) (limit : Nat) (radii : List ℝ) (hradii : radii ≠ [])
    (e : Err) (hrun : EstDensProfs c' choose limit o radii sel (.error e)) :
    ∃ z ∈ sel, ∀ out, EstDensProfs c' choose limit o radii [z] out → ∃ e, out = .error e := by
  obtain ⟨parts, r200, h1, h2, h3, h4⟩ := alone_prepared c xyz masses box objs minPtcs hmin center hs o ho sel hsel
  obtain ⟨edges, hedges⟩ : ∃ e, sphEdges radii = some e := by
    unfold sphEdges
    rw [List.getLast?_eq_some_getLast hradii]
    exact ⟨_, rfl⟩
  have e1 := congrArg Except.toOption (estDensProfs_fn c' choose limit o radii edges hedges sel parts h1 r200 h2 h3 _ hrun)
  rw [profilesOf_rows] at e1
  obtain ⟨pr, hpr, hn⟩ := mapM_none _ _ e1.symm
  obtain ⟨z, hz, q1, q2⟩ := h4 pr hpr
  refine ⟨z, hz, fun out hout => ?_⟩
  have e2 := congrArg Except.toOption (estDensProfs_fn c' choose limit o radii edges hedges [z] _ q1 _ q2 rfl _ hout)
  rw [profilesOf_rows] at e2
  simp only [List.zip_cons_cons, List.zip_nil_right] at e2
  rw [mapM_single, hn] at e2
  cases out with
  | error e => exact ⟨e, rfl⟩
  | ok r => cases e2

/-- C148. The same for kernel-based density profiles. -/
theorem C148_kernel_fail (c' : Cfg ℝ) (choose : Nat → List Nat) (limit : Nat) (radii : List ℝ)
    (e : KernelErr) (hrun : EstDensProfsKernel c' choose limit o radii sel (.error e)) :
    ∃ z ∈ sel, ∀ out, EstDensProfsKernel c' choose limit o radii [z] out → ∃ e, out = .error e := by
  obtain ⟨parts, r200, h1, h2, h3, h4⟩ := alone_prepared c xyz masses box objs minPtcs hmin center hs o ho sel hsel
  have e1 := congrArg Except.toOption (estDensProfsKernel_fn c' choose limit o radii sel parts h1 r200 h2 _ hrun)
  rw [kernelOf_rows] at e1
  obtain ⟨pr, hpr, hn⟩ := mapM_none _ _ e1.symm
  obtain ⟨z, hz, q1, q2⟩ := h4 pr hpr
  refine ⟨z, hz, fun out hout => ?_⟩
  have e2 := congrArg Except.toOption (estDensProfsKernel_fn c' choose limit o radii [z] _ q1 _ q2 _ hout)
  rw [kernelOf_rows] at e2
  simp only [List.zip_cons_cons, List.zip_nil_right] at e2
  rw [mapM_single, hn] at e2
  cases out with
  | error e => exact ⟨e, rfl⟩
  | ok r => cases e2

/-- C148. The same for masses and centres. -/
theorem C148_centres_fail (c' : Cfg ℝ) (choose : Nat → List Nat) (limit : Nat)
    (e : Err) (hrun : GetMassesCenters c' choose limit o sel (.error e)) :
    ∃ z ∈ sel, ∀ out, GetMassesCenters c' choose limit o [z] out → ∃ e, out = .error e := by
  obtain ⟨parts, r200, h1, h2, h3, h4⟩ := alone_prepared c xyz masses box objs minPtcs hmin center hs o ho sel hsel
  have e1 := congrArg Except.toOption (getMassesCenters_fn c' choose limit o sel parts h1 _ hrun)
  rw [massesOf_rows] at e1
  obtain ⟨ps, hps, hn⟩ := mapM_none _ _ e1.symm
  obtain ⟨k, hk⟩ := List.mem_iff_getElem?.1 hps
  have hkl := (List.getElem?_eq_some_iff.1 hk).1
  obtain ⟨z, hz, q1, -⟩ := h4 (ps, r200[k]) (List.mem_iff_getElem?.2 ⟨k, by
    rw [List.getElem?_zip_eq_some]; exact ⟨hk, List.getElem?_eq_getElem (by omega)⟩⟩)
  refine ⟨z, hz, fun out hout => ?_⟩
  have e2 := congrArg Except.toOption (getMassesCenters_fn c' choose limit o [z] _ q1 _ hout)
  rw [massesOf_rows, mapM_single, hn] at e2
  cases out with
  | error e => exact ⟨e, rfl⟩
  | ok r => cases e2

end
end

/-- The full property is false: selected alone, the second object (two particles) gets its profile; together with the first one, which has
a particle exactly at its centre, it gets none: the call raises ZeroDivisionError. -/
theorem C148_spoiled_refuted (c : Cfg ℝ) (hc : c.Pos) (limit : Nat) :
    ∃ o, construct c ⟨[![4, 5, 5], ![5, 5, 5], ![6, 5, 5], ![4, 2, 5], ![6, 2, 5]], [1, 1, 1, 1, 1], .nested [[0, 1, 2], [3, 4]],
      .array [5, 5], 10, 1, .com⟩ = .ok o ∧
    (∃ row, EstDensProfsKernel c (fun _ => [0]) limit o [1] [1] (.ok [row])) ∧
    ∀ out, EstDensProfsKernel c (fun _ => [0]) limit o [1] [0, 1] out → out = .error .zeroDivision := by
  have hs : Sensible [![4, 5, 5], ![5, 5, 5], ![6, 5, 5], ![4, 2, 5], ![6, 2, (5 : ℝ)]] [1, 1, 1, 1, 1] 10
      [([0, 1, 2], 5), ([3, 4], 5)] := by
    refine ⟨rfl, by norm_num, ?_, ?_, by simp, ?_⟩
    · intro x hx a
      simp only [List.mem_cons, List.not_mem_nil, or_false] at hx
      rcases hx with rfl | rfl | rfl | rfl | rfl <;> fin_cases a <;> norm_num
    · intro m hm
      simp only [List.mem_cons, List.not_mem_nil, or_false] at hm
      rcases hm with rfl | rfl | rfl | rfl | rfl <;> norm_num
    · intro o ho i hi
      simp only [List.mem_cons, List.not_mem_nil, or_false] at ho
      rcases ho with rfl | rfl
      · simp only [List.mem_cons, List.not_mem_nil, or_false] at hi
        rcases hi with rfl | rfl | rfl <;> simp
      · simp only [List.mem_cons, List.not_mem_nil, or_false] at hi
        rcases hi with rfl | rfl <;> simp
  have hres : resolved 1 [([0, 1, 2], (5 : ℝ)), ([3, 4], 5)] = [([0, 1, 2], 5), ([3, 4], 5)] := by simp [resolved]
  obtain ⟨o, ho⟩ : ∃ o, construct c ⟨[![4, 5, 5], ![5, 5, 5], ![6, 5, 5], ![4, 2, 5], ![6, 2, 5]], [1, 1, 1, 1, 1],
      .nested ([([0, 1, 2], (5 : ℝ)), ([3, 4], 5)].map Prod.fst), .array ([([0, 1, 2], (5 : ℝ)), ([3, 4], 5)].map Prod.snd),
      10, 1, .com⟩ = .ok o := ⟨_, construct_eq c _ _ _ _ _ _ rfl (by simp)⟩
  have hparts : particlesOf [![4, 5, 5], ![5, 5, 5], ![6, 5, 5], ![4, 2, 5], ![6, 2, (5 : ℝ)]] [1, 1, 1, 1, 1] [0, 1, 2] =
      [⟨![4, 5, 5], 1⟩, ⟨![5, 5, 5], 1⟩, ⟨![6, 5, 5], 1⟩] := by
    simp [particlesOf]
  have hparts' : particlesOf [![4, 5, 5], ![5, 5, 5], ![6, 5, 5], ![4, 2, 5], ![6, 2, (5 : ℝ)]] [1, 1, 1, 1, 1] [3, 4] =
      [⟨![4, 2, 5], 1⟩, ⟨![6, 2, 5], 1⟩] := by
    simp [particlesOf]
  have hsel : GoodSelection [0, 1] (resolved 1 [([0, 1, 2], (5 : ℝ)), ([3, 4], 5)]).length := by
    rw [hres]; exact ⟨by simp, by simp, by simp⟩
  have hsel1 : GoodSelection [1] (resolved 1 [([0, 1, 2], (5 : ℝ)), ([3, 4], 5)]).length := by
    rw [hres]; exact ⟨by simp, by simp, by simp⟩
  have hnc' : NotCrossing (10 : ℝ) [⟨![4, 2, 5], 1⟩, ⟨![6, 2, 5], 1⟩] := by
    intro p hp q hq a
    simp only [List.mem_cons, List.not_mem_nil, or_false] at hp hq
    rcases hp with rfl | rfl <;> rcases hq with rfl | rfl <;> fin_cases a <;> norm_num [abs_le]
  refine ⟨o, ho, ?_, ?_⟩
  · obtain ⟨out, hout⟩ := C113_outcome_exists c c _ _ _ _ 1 le_rfl .com hs (fun _ => [0]) limit o ho [1] [1] hsel1
    rcases C113_kernel_partial c c hc hc rfl _ _ _ _ 1 le_rfl .com hs (by simp) (fun _ => [0]) (fun n hn => ⟨0, by simp, hn⟩)
      limit o ho [1] (by simp) (by simp) [1] hsel1 out hout with ⟨-, h⟩ | ⟨-, z, hz, obj, hobj, h⟩ | ⟨res, rfl, hlen, -⟩
    · cases h
    · simp only [List.mem_singleton] at hz
      subst hz
      rw [hres] at hobj
      obtain rfl : ([3, 4], (5 : ℝ)) = obj := by simpa using hobj
      rw [hparts'] at h
      obtain ⟨sub, -, -, hsub, p, hp, h0⟩ := h hnc'
      rw [hsub rfl] at h0
      have := congrFun h0 0
      simp only [List.mem_cons, List.not_mem_nil, or_false] at hp
      rcases hp with rfl | rfl <;> norm_num [weightedMean, totalMass] at this
    · obtain ⟨row, rfl⟩ := List.length_eq_one_iff.1 (hlen.trans rfl)
      exact ⟨row, hout⟩
  · intro out hrun
    refine C113_particle_at_centre c c hc hc rfl _ _ _ _ 1 le_rfl hs (by simp) _
      (fun n hn => ⟨0, by simp, hn⟩) limit o ho [1] (by simp) (by simp) [0, 1] hsel 0 (by simp)
      ([0, 1, 2], 5) (by rw [hres]; rfl) ?_ ?_ out hrun
    · rw [hparts]
      intro p hp q hq a
      simp only [List.mem_cons, List.not_mem_nil, or_false] at hp hq
      rcases hp with rfl | rfl | rfl <;> rcases hq with rfl | rfl | rfl <;> fin_cases a <;>
        norm_num [abs_le]
    · rw [hparts]
      refine ⟨⟨![5, 5, 5], 1⟩, by simp, ?_⟩
      funext a
      fin_cases a <;> norm_num [weightedMean, totalMass]

/-- The same object, number 0 of a simulation of two particles and number 1 of a simulation of five. -/
example : SameObjectIn 2 [![4, 2, 5], ![6, 2, 5]] [1, 1] [([0, 1], 5)] 0
    [![4, 5, 5], ![5, 5, 5], ![6, 5, 5], ![4, 2, 5], ![6, 2, (5 : ℝ)]] [1, 1, 1, 1, 1] [([0, 1, 2], 3), ([2], 7), ([3, 4], 5)] 1 :=
  ⟨([0, 1], 5), ([3, 4], 5), by simp [resolved], by simp [resolved], by simp [particlesOf], rfl⟩

end Verif.Api
