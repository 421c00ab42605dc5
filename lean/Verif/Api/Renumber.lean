import Verif.Api.Moved
import Verif.Stats.EpsProps

/-!
# Numbering and order of particles (C135)
-/

set_option linter.unusedSectionVars false

namespace Verif.Api

open Verif.Units Verif.Catalogue Verif.Periodic Verif.Binning Verif.Par
open Verif.Shapes (Solver Settings ObjData Pt Part Morph Kind aloneShapes positionPts pureOne pureLoop pureLocal
  pureGlobal pureRun move localSpread GoodSolver Same)
open Verif.Stats (weightedMean_perm calcMode_perm)

/-! ## Specification -/

/-- The same particles under other numbers: particle `i` of the first arrays is particle `π i` of the second ones. -/
def Renumbered (π : Nat → Nat) (xyz : List (Vec ℝ)) (masses : List ℝ) (xyz' : List (Vec ℝ)) (masses' : List ℝ) : Prop :=
  ∀ i, xyz'[π i]? = xyz[i]? ∧ masses'[π i]? = masses[i]?

/-- The same objects: each is the same set of particles, listed in any order, with the same radius. -/
def SameObjects (π : Nat → Nat) (objs objs' : List (List Nat × ℝ)) : Prop :=
  List.Forall₂ (fun o o' : List Nat × ℝ => o'.1.Perm (o.1.map π) ∧ o'.2 = o.2) objs objs'

/-! ## One object -/

theorem particlesOf_renumbered (π : Nat → Nat) (xyz xyz' : List (Vec ℝ)) (masses masses' : List ℝ)
    (h : Renumbered π xyz masses xyz' masses') (idx idx' : List Nat) (hp : idx'.Perm (idx.map π)) :
    (particlesOf xyz' masses' idx').Perm (particlesOf xyz masses idx) := by
  unfold particlesOf
  refine (hp.filterMap _).trans ?_
  rw [List.filterMap_map]
  refine List.Perm.of_eq ?_
  apply List.filterMap_congr
  intro i _
  simp only [Function.comp, (h i).1, (h i).2]

theorem notCrossing_perm {L : ℝ} {ps ps' : List (Particle ℝ)} (hp : ps'.Perm ps) (h : NotCrossing L ps) :
    NotCrossing L ps' :=
  fun p hp' q hq a => h p (hp.subset hp') q (hp.subset hq) a

theorem max?_perm {l l' : List ℝ} (h : l.Perm l') : l.max? = l'.max? := by
  cases hl : l.max? with
  | none =>
    rw [List.max?_eq_none_iff] at hl
    subst hl
    rw [List.nil_perm.1 h]
    rfl
  | some a =>
    symm
    rw [List.max?_eq_some_iff] at hl ⊢
    exact ⟨h.subset hl.1, fun b hb => hl.2 b (h.symm.subset hb)⟩

theorem min?_perm {l l' : List ℝ} (h : l.Perm l') : l.min? = l'.min? := by
  cases hl : l.min? with
  | none =>
    rw [List.min?_eq_none_iff] at hl
    subst hl
    rw [List.nil_perm.1 h]
    rfl
  | some a =>
    symm
    rw [List.min?_eq_some_iff] at hl ⊢
    exact ⟨h.subset hl.1, fun b hb => hl.2 b (h.symm.subset hb)⟩

theorem axisExtent_perm {ps ps' : List (Particle ℝ)} (h : ps'.Perm ps) (a : Fin 3) :
    axisExtent ps' a = axisExtent ps a := by
  unfold axisExtent
  rw [max?_perm (h.map fun p => p.pos a), min?_perm (h.map fun p => p.pos a)]

section
variable (choose choose' : Nat → List Nat) (hch : ∀ n, 0 < n → ∃ j ∈ choose n, j < n)
  (hch' : ∀ n, 0 < n → ∃ j ∈ choose' n, j < n) (limit : Nat) (L : ℝ) (hL : 0 < L)
  (center : Center) (ps ps' : List (Particle ℝ)) (hp : ps'.Perm ps) (hne : ps ≠ []) (hm : ∀ p ∈ ps, 0 < p.mass)
  (h : NotCrossing L ps)
include hch hch' hL hp hne hm h

theorem unwrapped_perm : unwrapped choose' L ps' = ps' ∧ unwrapped choose L ps = ps :=
  ⟨unwrapped_of_notCrossing choose' L hL _ (hch' _ (by rw [hp.length_eq]; exact List.length_pos_iff.2 hne))
    (notCrossing_perm hp h),
   unwrapped_of_notCrossing choose L hL _ (hch _ (List.length_pos_iff.2 hne)) h⟩

theorem centreOf_perm : centreOf choose' limit L center ps' = centreOf choose limit L center ps := by
  obtain ⟨h1, h2⟩ := unwrapped_perm choose choose' hch hch' L hL ps ps' hp hne hm h
  have hM := (totalMass_pos ps hne hm).ne'
  have hM' : totalMass ps' ≠ 0 := by
    unfold totalMass at hM ⊢
    rwa [(hp.map fun p => p.mass).sum_eq]
  unfold centreOf
  unfold unwrapped at h1 h2
  dsimp only
  rw [h1, h2]
  cases center with
  | com => exact congrArg some (by rw [calcCoM_eq _ _ hM, calcCoM_eq _ _ hM', weightedMean_perm hp])
  | mode => exact calcMode_perm limit ps' ps hp 1000

theorem shapeCentre_perm : shapeCentre choose' limit L center ps' = shapeCentre choose limit L center ps := by
  obtain ⟨h1, h2⟩ := unwrapped_perm choose choose' hch hch' L hL ps ps' hp hne hm h
  have hM := (totalMass_pos ps hne hm).ne'
  have hM' : totalMass ps' ≠ 0 := by
    unfold totalMass at hM ⊢
    rwa [(hp.map fun p => p.mass).sum_eq]
  unfold shapeCentre
  unfold unwrapped at h1 h2
  dsimp only
  rw [h1, h2]
  cases center with
  | com => exact congrArg some (by rw [calcCoM_eq _ _ hM, calcCoM_eq _ _ hM', weightedMean_perm hp])
  | mode =>
    simp only [axisExtent_perm hp]
    exact calcMode_perm limit ps' ps hp _

end

theorem aloneProfile_perm (L : ℝ) (hL : 0 < L) (edges : List ℝ) (ps ps' : List (Particle ℝ)) (hp : ps'.Perm ps)
    (h : NotCrossing L ps) (v : Vec ℝ) (r : ℝ) :
    aloneProfile L edges ⟨ps', v, r⟩ = aloneProfile L edges ⟨ps, v, r⟩ := by
  unfold aloneProfile
  simp only
  rw [cy_of_notCrossing L hL _ (notCrossing_perm hp h), cy_of_notCrossing L hL _ h]
  exact (C29_order_independent ps ps' hp v r edges _ _ (by simp) (by simp)).1

theorem massDistances_perm (L : ℝ) (hL : 0 < L) (ps ps' : List (Particle ℝ)) (hp : ps'.Perm ps) (h : NotCrossing L ps)
    (v : Vec ℝ) : (massDistances L v ps').Perm (massDistances L v ps) := by
  unfold massDistances
  rw [cy_of_notCrossing L hL _ (notCrossing_perm hp h), cy_of_notCrossing L hL _ h]
  exact hp.map _

theorem densKernel_perm (r200 r : ℝ) (l l' : List (ℝ × ℝ)) (h : l'.Perm l) :
    densKernel r200 l' r = densKernel r200 l r := by
  unfold densKernel
  rw [foldl_add_eq, foldl_add_eq, (h.map _).sum_eq]

theorem localSpread_perm (pts pts' : List Pt) (h : pts'.Perm pts) : localSpread pts' = localSpread pts := by
  unfold localSpread
  simp only [foldl_add_eq]
  have hm : ∀ i, (pts'.map fun p => p.x i / (pts'.length : ℝ)).sum = (pts.map fun p => p.x i / (pts.length : ℝ)).sum := by
    intro i
    rw [h.length_eq, (h.map _).sum_eq]
  simp only [hm]
  rw [h.length_eq, (h.map _).sum_eq]

theorem aloneShapes_perm (st : Settings) (hL : 0 < st.box) (whole : Bool) (ps ps' : List (Particle ℝ)) (hp : ps'.Perm ps)
    (h : NotCrossing st.box ps) (v : Vec ℝ) (r : ℝ) :
    aloneShapes st (kindOf whole) ⟨ps'.map fun p => ⟨p.pos, 0, p.mass⟩, v, r⟩ =
      aloneShapes st (kindOf whole) ⟨ps.map fun p => ⟨p.pos, 0, p.mass⟩, v, r⟩ := by
  have e1 := hp.map fun p => (⟨p.pos, p.pos, p.mass⟩ : Pt)
  have hone : ∀ (d : ℝ) (δ : Option ℝ) (m : Morph) (pts pts' : List Pt), pts'.Perm pts →
      pureOne (st.config pts' v v d δ) m = pureOne (st.config pts v v d δ) m := by
    intro d δ m pts pts' hpp
    have hsame : Same id 1 (st.config pts v v d δ) (st.config pts' v v d δ) :=
      ⟨by simpa [Settings.config] using hpp, fun _ _ _ => rfl, fun _ _ _ => rfl, fun _ _ => by simp, one_ne_zero,
        rfl, rfl, rfl, rfl, rfl, rfl, rfl⟩
    unfold pureOne
    rw [hsame.run]
    rfl
  have hP := positionPts_of_notCrossing st hL ps' v r (notCrossing_perm hp h)
  have hP' := positionPts_of_notCrossing st hL ps v r h
  unfold kindOf
  cases whole with
  | true =>
    simp only [if_true]
    unfold aloneShapes
    simp only
    rw [hP, hP']
    unfold pureGlobal pureLoop
    simp only [localSpread_perm _ _ e1, hone _ _ _ _ _ e1]
  | false =>
    simp only [Bool.false_eq_true, if_false]
    unfold aloneShapes
    simp only
    rw [hP, hP']
    unfold pureLocal pureLoop
    simp only [localSpread_perm _ _ e1, hone _ _ _ _ _ e1]

/-! ## Both objects -/

/-- The same particles in another order. -/
structure SamePart (L : ℝ) (ps ps' : List (Particle ℝ)) : Prop where
  perm : ps'.Perm ps
  nonempty : ps ≠ []
  masses : ∀ p ∈ ps, 0 < p.mass
  piece : NotCrossing L ps

theorem resolved_same {π : Nat → Nat} {objs objs' : List (List Nat × ℝ)} (minPtcs : Int) (h : SameObjects π objs objs') :
    SameObjects π (resolved minPtcs objs) (resolved minPtcs objs') := by
  unfold SameObjects resolved at *
  induction h with
  | nil => exact .nil
  | @cons o o' l l' h _ ih =>
    have hl : o'.1.length = o.1.length := by rw [h.1.length_eq, List.length_map]
    simp only [List.filter_cons, hl]
    split
    · exact .cons h ih
    · exact ih

theorem same_radii {π : Nat → Nat} {objs objs' : List (List Nat × ℝ)} (f : ℝ) (h : SameObjects π objs objs') :
    objs'.map (fun o => o.2 * f) = objs.map fun o => o.2 * f := by
  unfold SameObjects at h
  induction h with
  | nil => rfl
  | cons h _ ih => rw [List.map_cons, List.map_cons, ih, h.2]

section
variable (c : Cfg ℝ) (hc : c.Pos) (π : Nat → Nat)
    (xyz xyz' : List (Vec ℝ)) (masses masses' : List ℝ) (box : ℝ) (objs objs' : List (List Nat × ℝ)) (minPtcs : Int)
    (hmin : 1 ≤ minPtcs) (center : Center) (hs : Sensible xyz masses box objs) (hs' : Sensible xyz' masses' box objs')
    (hπ : Renumbered π xyz masses xyz' masses') (hobjs : SameObjects π objs objs') (o o' : Obj)
    (ho : construct c ⟨xyz, masses, .nested (objs.map Prod.fst), .array (objs.map Prod.snd), box,
      minPtcs, center⟩ = .ok o)
    (ho' : construct c ⟨xyz', masses', .nested (objs'.map Prod.fst), .array (objs'.map Prod.snd), box,
      minPtcs, center⟩ = .ok o')
    (sel : List Int) (hsel : GoodSelection sel (resolved minPtcs objs).length)
    (hpiece : ∀ z ∈ sel, ∀ obj, (resolved minPtcs objs)[z.toNat]? = some obj →
      NotCrossing box (particlesOf xyz masses obj.1))
include hc hmin hs hs' hπ hobjs ho ho' hsel hpiece

theorem both_renumbered : ∃ parts parts' r200, selectParticles o sel = .ok parts ∧ selectParticles o' sel = .ok parts' ∧
    fancy o.r200 (sel.map Int.toNat) = some r200 ∧ fancy o'.r200 (sel.map Int.toNat) = some r200 ∧
    r200.length = parts.length ∧ r200.length = parts'.length ∧ o'.box = o.box ∧ o'.center = o.center ∧
    0 < o.box ∧ List.Forall₂ (SamePart o.box) parts parts' := by
  rw [construct_eq c xyz masses box objs minPtcs center hs.lengths hs.objects] at ho
  rw [construct_eq c xyz' masses' box objs' minPtcs center hs'.lengths hs'.objects] at ho'
  have ho := Except.ok.inj ho
  have ho' := Except.ok.inj ho'
  have hfp : 0 < c.inL / mpch c.h := div_pos hc.inL (mpch_pos hc.h)
  have hgp : 0 < c.inM / msunh10 c.h := div_pos hc.inM (msunh10_pos hc.h)
  set f := c.inL / mpch c.h with hf
  set g := c.inM / msunh10 c.h with hg
  have hres := resolved_same minPtcs hobjs
  have hlen : (resolved minPtcs objs').length = (resolved minPtcs objs).length := hres.length_eq.symm
  obtain ⟨parts, hsp, hplen, hpk⟩ := selected f g xyz masses box objs minPtcs hmin hs o
    (by rw [← ho]) (by rw [← ho]) (by rw [← ho]) (by rw [← ho]) sel hsel
  obtain ⟨parts', hsp', hplen', hpk'⟩ := selected f g xyz' masses' box objs' minPtcs hmin hs' o'
    (by rw [← ho']) (by rw [← ho']) (by rw [← ho']) (by rw [← ho']) sel (by rw [hlen]; exact hsel)
  have hor : o.r200 = (resolved minPtcs objs).map fun o => o.2 * f := by rw [← ho]
  have hor' : o'.r200 = o.r200 := by
    rw [hor, ← ho']
    show (resolved minPtcs objs').map (fun o => o.2 * f) = _
    exact same_radii f hres
  have hbox : o.box = box * f := by rw [← ho]
  obtain ⟨r200, hr⟩ : ∃ r, fancy o.r200 (sel.map Int.toNat) = some r := by
    apply mapM_exists
    intro i hi
    obtain ⟨z, hz, rfl⟩ := List.mem_map.1 hi
    have := hsel.2.2 z hz
    refine ⟨_, List.getElem?_eq_getElem ?_⟩
    rw [hor, List.length_map]
    omega
  have hrl : r200.length = sel.length := by
    rw [(mapM_some_get _ _ _ hr).1]; simp
  refine ⟨parts, parts', r200, hsp, hsp', hr, by rw [hor']; exact hr, by omega, by omega,
    by rw [← ho, ← ho'], by rw [← ho, ← ho'], by rw [hbox]; exact mul_pos hs.box_pos hfp, ?_⟩
  rw [List.forall₂_iff_get]
  refine ⟨by omega, ?_⟩
  intro k hk hk'
  have hks : k < sel.length := by omega
  have hz := hsel.2.2 sel[k] (List.getElem_mem hks)
  have hlt : (sel[k]).toNat < (resolved minPtcs objs).length := by omega
  have hlt' : (sel[k]).toNat < (resolved minPtcs objs').length := by omega
  have hget := List.getElem?_eq_getElem hlt
  have hget' := List.getElem?_eq_getElem hlt'
  obtain ⟨h1, h2⟩ := hpk k _ _ (List.getElem?_eq_getElem hks) hget
  obtain ⟨h1', -⟩ := hpk' k _ _ (List.getElem?_eq_getElem hks) hget'
  have hp1 := hpiece _ (List.getElem_mem hks) _ hget
  have hsame := (List.forall₂_iff_get.1 hres).2 _ hlt hlt'
  have hperm := particlesOf_renumbered π xyz xyz' masses masses' hπ _ _ hsame.1
  have e1 := (List.getElem?_eq_some_iff.1 h1).2
  have e1' := (List.getElem?_eq_some_iff.1 h1').2
  rw [List.get_eq_getElem, List.get_eq_getElem, e1, e1']
  refine ⟨hperm.map _, by simpa using h2, ?_, ?_⟩
  · intro p hp
    obtain ⟨q, hq, rfl⟩ := List.mem_map.1 hp
    exact mul_pos (hs.masses_pos _ (mem_particlesOf hq).2) hgp
  · rw [hbox]; exact notCrossing_scale box f g hfp _ hp1

variable (choose choose' : Nat → List Nat) (hch : ∀ n, 0 < n → ∃ j ∈ choose n, j < n)
  (hch' : ∀ n, 0 < n → ∃ j ∈ choose' n, j < n) (limit : Nat) (c' : Cfg ℝ)
include hch hch'

/-- C135 (partial). Number the particles anew and list those of every object in any order; further particles which belong to no object may
be added.  The shapes of selected objects which cross no face of the box stay the same, whatever particles are drawn at random (`choose`)
and whatever the schedules of the parallel loops.  Missing: objects which cross a face (`C135_crossing_refuted`). -/
theorem C135_shapes_partial (sol : Solver) (katz : Katz) (whole : Bool)
    (out out' : Except ShapeErr (List (List ShapeEntry)))
    (hrun : GetShapeCat c' sol choose limit o katz whole sel out)
    (hrun' : GetShapeCat c' sol choose' limit o' katz whole sel out') : out' = out := by
  obtain ⟨parts, parts', r200, h1, h1', h2, h2', h3, h3', h4, h5, h6, h7⟩ := both_renumbered c hc π xyz xyz' masses masses' box
    objs objs' minPtcs hmin center hs hs' hπ hobjs o o' ho ho' sel hsel hpiece
  rw [getShapeCat_fn c' sol choose limit o katz whole sel parts h1 r200 h2 h3 out hrun,
    getShapeCat_fn c' sol choose' limit o' katz whole sel parts' h1' r200 h2' h3' out' hrun', h4, h5]
  unfold shapesOf
  rw [mapM_eq_of_map]
  clear h1 h1' h2 h2' hrun hrun'
  induction h7 generalizing r200 with
  | nil => rfl
  | @cons ps ps' rest rest' h _ ih =>
    cases r200 with
    | nil => simp at h3
    | cons r r200 =>
      simp only [List.zip_cons_cons, List.map_cons, List.cons.injEq]
      refine ⟨?_, ih r200 (by simpa using h3) (by simpa using h3')⟩
      rw [shapeCentre_perm choose choose' hch hch' limit o.box h6 o.center ps ps' h.perm h.nonempty h.masses h.piece]
      cases shapeCentre choose limit o.box o.center ps with
      | none => rfl
      | some v =>
        simp only [Option.map_some, Option.some.injEq]
        exact aloneShapes_perm (katz.settings sol o.box) h6 whole ps ps' h.perm h.piece v r

/-- C135 (partial). The same for density profiles (spherical shells). -/
theorem C135_profiles_partial (radii : List ℝ) (hradii : radii ≠ [])
    (out out' : Except Err (List (List ℝ)))
    (hrun : EstDensProfs c' choose limit o radii sel out) (hrun' : EstDensProfs c' choose' limit o' radii sel out') :
    out' = out := by
  obtain ⟨parts, parts', r200, h1, h1', h2, h2', h3, h3', h4, h5, h6, h7⟩ := both_renumbered c hc π xyz xyz' masses masses' box
    objs objs' minPtcs hmin center hs hs' hπ hobjs o o' ho ho' sel hsel hpiece
  obtain ⟨edges, hedges⟩ : ∃ e, sphEdges radii = some e := by
    unfold sphEdges
    rw [List.getLast?_eq_some_getLast hradii]
    exact ⟨_, rfl⟩
  rw [estDensProfs_fn c' choose limit o radii edges hedges sel parts h1 r200 h2 h3 out hrun,
    estDensProfs_fn c' choose' limit o' radii edges hedges sel parts' h1' r200 h2' h3' out' hrun', h4, h5]
  unfold profilesOf
  rw [mapM_eq_of_map]
  clear h1 h1' h2 h2' hrun hrun'
  induction h7 generalizing r200 with
  | nil => rfl
  | @cons ps ps' rest rest' h _ ih =>
    cases r200 with
    | nil => simp at h3
    | cons r r200 =>
      simp only [List.zip_cons_cons, List.map_cons, List.cons.injEq]
      refine ⟨?_, ih r200 (by simpa using h3) (by simpa using h3')⟩
      rw [centreOf_perm choose choose' hch hch' limit o.box h6 o.center ps ps' h.perm h.nonempty h.masses h.piece]
      cases centreOf choose limit o.box o.center ps with
      | none => rfl
      | some v =>
        simp only [Option.map_some, Option.some.injEq]
        rw [aloneProfile_perm o.box h6 edges ps ps' h.perm h.piece v r]

/-- C135 (partial). The same for kernel-based density profiles. -/
theorem C135_kernel_partial (radii : List ℝ)
    (out out' : Except KernelErr (List (List ℝ)))
    (hrun : EstDensProfsKernel c' choose limit o radii sel out)
    (hrun' : EstDensProfsKernel c' choose' limit o' radii sel out') : out' = out := by
  obtain ⟨parts, parts', r200, h1, h1', h2, h2', h3, h3', h4, h5, h6, h7⟩ := both_renumbered c hc π xyz xyz' masses masses' box
    objs objs' minPtcs hmin center hs hs' hπ hobjs o o' ho ho' sel hsel hpiece
  have hsame : kernelOf choose' limit o.box o.center radii (parts'.zip r200) =
      kernelOf choose limit o.box o.center radii (parts.zip r200) := by
    clear h1 h1' h2 h2' hrun hrun'
    induction h7 generalizing r200 with
    | nil => rfl
    | @cons ps ps' rest rest' h _ ih =>
      cases r200 with
      | nil => simp at h3
      | cons r r200 =>
        simp only [List.zip_cons_cons]
        unfold kernelOf
        rw [centreOf_perm choose choose' hch hch' limit o.box h6 o.center ps ps' h.perm h.nonempty h.masses h.piece]
        cases centreOf choose limit o.box o.center ps with
        | none => rfl
        | some v =>
          have hd := massDistances_perm o.box h6 ps ps' h.perm h.piece v
          simp only [hd.mem_iff, fun x => densKernel_perm r x _ _ hd]
          rw [ih r200 (by simpa using h3) (by simpa using h3')]
  rw [estDensProfsKernel_fn c' choose limit o radii sel parts h1 r200 h2 out hrun,
    estDensProfsKernel_fn c' choose' limit o' radii sel parts' h1' r200 h2' out' hrun', h4, h5, hsame]

/-- C135 (partial). The same for masses and centres. -/
theorem C135_centres_partial (out out' : Except Err (List (Vec ℝ × ℝ)))
    (hrun : GetMassesCenters c' choose limit o sel out) (hrun' : GetMassesCenters c' choose' limit o' sel out') :
    out' = out := by
  obtain ⟨parts, parts', r200, h1, h1', h2, h2', h3, h3', h4, h5, h6, h7⟩ := both_renumbered c hc π xyz xyz' masses masses' box
    objs objs' minPtcs hmin center hs hs' hπ hobjs o o' ho ho' sel hsel hpiece
  rw [getMassesCenters_fn c' choose limit o sel parts h1 out hrun,
    getMassesCenters_fn c' choose' limit o' sel parts' h1' out' hrun', h4, h5]
  unfold massesOf
  rw [mapM_eq_of_map]
  clear h1 h1' h2 h2' h3 h3' hrun hrun'
  induction h7 with
  | nil => rfl
  | @cons ps ps' rest rest' h _ ih =>
    simp only [List.map_cons, List.cons.injEq]
    refine ⟨?_, ih⟩
    rw [centreOf_perm choose choose' hch hch' limit o.box h6 o.center ps ps' h.perm h.nonempty h.masses h.piece]
    unfold totalMass
    rw [(h.perm.map fun p => p.mass).sum_eq]

end

/-! ## Objects crossing a face -/

/-- The profile of one object in terms of its particles. -/
theorem est_single (c : Cfg ℝ) (choose : Nat → List Nat) (limit : Nat) (o : Obj)
    (xyz : List (Vec ℝ)) (masses : List ℝ) (box : ℝ) (idx : List Nat) (r200 : ℝ)
    (hs : Sensible xyz masses box [(idx, r200)]) (hidx : idx ≠ [])
    (ho : construct c ⟨xyz, masses, .nested [idx], .array [r200], box, 1, .com⟩ = .ok o)
    (ps : List (Particle ℝ)) (hps : particlesOf xyz masses idx = ps) (out : Except Err (List (List ℝ)))
    (hrun : EstDensProfs c choose limit o [1] [0] out) :
    out = profilesOf c choose limit (box * (c.inL / mpch c.h)) .com [1e-8, 1]
      [(ps.map (scale (c.inL / mpch c.h) (c.inM / msunh10 c.h)), r200 * (c.inL / mpch c.h))] := by
  have hres : resolved 1 [(idx, r200)] = [(idx, r200)] := by
    have : 0 < idx.length := List.length_pos_iff.2 hidx
    simp only [resolved, List.filter_cons, List.filter_nil]
    rw [if_pos]
    simp only [decide_eq_true_eq]
    omega
  have hsel : GoodSelection [0] (resolved 1 [(idx, r200)]).length := by
    rw [hres]; exact ⟨by simp, by simp, by simp⟩
  have ho' := construct_eq c xyz masses box [(idx, r200)] 1 .com hs.lengths hs.objects
  have ho2 := Except.ok.inj (ho'.symm.trans ho)
  obtain ⟨parts, hsp, hplen, hpk⟩ := selected (c.inL / mpch c.h) (c.inM / msunh10 c.h) xyz masses box [(idx, r200)] 1 le_rfl hs o
    (by rw [← ho2]) (by rw [← ho2]) (by rw [← ho2]) (by rw [← ho2]) [0] hsel
  have hr : fancy o.r200 (([0] : List Int).map Int.toNat) = some [r200 * (c.inL / mpch c.h)] := by
    rw [← ho2, hres]
    rfl
  have hparts : parts = [ps.map (scale (c.inL / mpch c.h) (c.inM / msunh10 c.h))] := by
    have h1 := (hpk 0 0 (idx, r200) rfl (by rw [hres]; rfl)).1
    match parts, hplen with
    | [x], _ =>
      simp only [List.getElem?_cons_zero, Option.some.injEq] at h1
      rw [h1, ← hps]
  have hbox : o.box = box * (c.inL / mpch c.h) := by rw [← ho2]
  have hcen : o.center = .com := by rw [← ho2]
  rw [estDensProfs_fn c choose limit o [1] [1e-8, 1] (by simp [sphEdges, midpoints]) [0] parts hsp _ hr
    (by rw [hplen]; rfl) out hrun, hparts, hbox, hcen]
  rfl

theorem line_sensible : Sensible [![0, 5, 5], ![2, 5, 5], ![9, 5, (5 : ℝ)]] [1, 1, 1] 10 [([0, 1, 2], 5)] ∧
    Sensible [![9, 5, 5], ![0, 5, 5], ![2, 5, (5 : ℝ)]] [1, 1, 1] 10 [([0, 1, 2], 5)] := by
  constructor
  all_goals
    refine ⟨rfl, by norm_num, ?_, ?_, by simp, ?_⟩
    · intro x hx a
      simp only [List.mem_cons, List.not_mem_nil, or_false] at hx
      rcases hx with rfl | rfl | rfl <;> fin_cases a <;> norm_num
    · intro m hm
      simp only [List.mem_cons, List.not_mem_nil, or_false] at hm
      rcases hm with rfl | rfl | rfl <;> norm_num
    · intro o ho i hi
      simp only [List.mem_cons, List.not_mem_nil, or_false] at ho
      subst ho
      simp only [List.mem_cons, List.not_mem_nil, or_false] at hi
      rcases hi with rfl | rfl | rfl <;> simp

/-- The numbers of the three particles in the second order. -/
def turn : Nat → Nat
  | 0 => 1
  | 1 => 2
  | 2 => 0
  | n => n

theorem line_renumbered : Renumbered turn [![0, 5, 5], ![2, 5, 5], ![9, 5, (5 : ℝ)]] [1, 1, 1]
    [![9, 5, 5], ![0, 5, 5], ![2, 5, (5 : ℝ)]] [1, 1, 1] ∧ SameObjects turn [([0, 1, 2], 5)] [([0, 1, 2], 5)] := by
  constructor
  · intro i
    match i with
    | 0 => exact ⟨rfl, rfl⟩
    | 1 => exact ⟨rfl, rfl⟩
    | 2 => exact ⟨rfl, rfl⟩
    | n + 3 => exact ⟨rfl, rfl⟩
  · refine .cons ⟨?_, rfl⟩ .nil
    show List.Perm [0, 1, 2] [1, 2, 0]
    decide

/-- The centre of the three particles, whatever their order. -/
theorem line_centre (f g : ℝ) (hf : 0 < f) (hg : 0 < g) (limit : Nat) :
    centreOf (fun _ => [0, 1, 2]) limit (10 * f) .com
      ([⟨![0, 5, 5], 1⟩, ⟨![2, 5, 5], 1⟩, ⟨![9, 5, 5], 1⟩].map (scale f g)) =
        some (fun a => (![1 / 3, 5, 5] : Vec ℝ) a * f) ∧
    centreOf (fun _ => [0, 1, 2]) limit (10 * f) .com
      ([⟨![9, 5, 5], 1⟩, ⟨![0, 5, 5], 1⟩, ⟨![2, 5, 5], 1⟩].map (scale f g)) =
        some (fun a => (![1 / 3, 5, 5] : Vec ℝ) a * f) := by
  have hL : 0 < 10 * f := by positivity
  constructor
  · show some (calcCoM [0, 1, 2] (unwrapped (fun _ => [0, 1, 2]) (10 * f)
      ([⟨![0, 5, 5], 1⟩, ⟨![2, 5, 5], 1⟩, ⟨![9, 5, 5], 1⟩].map (scale f g)))) = _
    have hun : unwrapped (fun _ => [0, 1, 2]) (10 * f)
        ([⟨![0, 5, 5], 1⟩, ⟨![2, 5, 5], 1⟩, ⟨![9, 5, 5], 1⟩].map (scale f g)) =
        [⟨![0, 5, 5], 1⟩, ⟨![2, 5, 5], 1⟩, ⟨![-1, 5, 5], 1⟩].map (scale f g) := by
      have href : reference [0, 1, 2] (([⟨![0, 5, 5], 1⟩, ⟨![2, 5, 5], 1⟩, ⟨![9, 5, 5], 1⟩].map
          (scale f g)).map fun p => p.pos) = fun a => (![11 / 3, 5, 5] : Vec ℝ) a * f := by
        funext a
        fin_cases a <;> simp [reference, scale] <;> ring
      rw [unwrapped_eq _ _ hL, href]
      simp only [List.map_cons, List.map_nil, scale, List.cons.injEq, Particle.mk.injEq, and_true]
      refine ⟨?_, ?_, ?_⟩ <;> funext a <;>
        rcases unwrapAxis_cases (10 * f) ((![11 / 3, 5, 5] : Vec ℝ) a * f) _ hL with
          ⟨h1, e⟩ | ⟨h1, e⟩ | ⟨h1, h2, e⟩ <;> rw [e] <;> fin_cases a <;> simp at * <;> nlinarith
    rw [hun, calcCoM_eq _ _ (by simp [totalMass, scale]; nlinarith)]
    congr 1
    funext a
    fin_cases a <;> simp [weightedMean, totalMass, scale] <;> field_simp <;> norm_num
  · show some (calcCoM [0, 1, 2] (unwrapped (fun _ => [0, 1, 2]) (10 * f)
      ([⟨![9, 5, 5], 1⟩, ⟨![0, 5, 5], 1⟩, ⟨![2, 5, 5], 1⟩].map (scale f g)))) = _
    have hun : unwrapped (fun _ => [0, 1, 2]) (10 * f)
        ([⟨![9, 5, 5], 1⟩, ⟨![0, 5, 5], 1⟩, ⟨![2, 5, 5], 1⟩].map (scale f g)) =
        [⟨![-1, 5, 5], 1⟩, ⟨![0, 5, 5], 1⟩, ⟨![2, 5, 5], 1⟩].map (scale f g) := by
      have href : reference [0, 1, 2] (([⟨![9, 5, 5], 1⟩, ⟨![0, 5, 5], 1⟩, ⟨![2, 5, 5], 1⟩].map
          (scale f g)).map fun p => p.pos) = fun a => (![11 / 3, 5, 5] : Vec ℝ) a * f := by
        funext a
        fin_cases a <;> simp [reference, scale] <;> ring
      rw [unwrapped_eq _ _ hL, href]
      simp only [List.map_cons, List.map_nil, scale, List.cons.injEq, Particle.mk.injEq, and_true]
      refine ⟨?_, ?_, ?_⟩ <;> funext a <;>
        rcases unwrapAxis_cases (10 * f) ((![11 / 3, 5, 5] : Vec ℝ) a * f) _ hL with
          ⟨h1, e⟩ | ⟨h1, e⟩ | ⟨h1, h2, e⟩ <;> rw [e] <;> fin_cases a <;> simp at * <;> nlinarith
    rw [hun, calcCoM_eq _ _ (by simp [totalMass, scale]; nlinarith)]
    congr 1
    funext a
    fin_cases a <;> simp [weightedMean, totalMass, scale] <;> field_simp <;> norm_num

theorem cyReflect_scale (L f : ℝ) (hf : 0 < f) (r p : Vec ℝ) :
    cyReflect (L * f) (fun a => r a * f) (fun a => p a * f) = fun a => cyReflect L r p a * f := by
  have key : ∀ x y : ℝ, (|x * f - y * f| > L * f / 2) = (|x - y| > L / 2) := by
    intro x y
    rw [← sub_mul, abs_mul, abs_of_pos hf, eq_iff_iff, mul_div_right_comm]
    exact mul_lt_mul_iff_left₀ hf
  have hsub : ∀ x : ℝ, L * f - x * f = (L - x) * f := fun x => by ring
  unfold cyReflect
  dsimp only
  by_cases h0 : |r 0 - p 0| > L / 2 <;> by_cases h1 : |r 1 - p 1| > L / 2 <;>
    by_cases h2 : |r 1 - (L - p 1)| > L / 2 <;>
    simp [key, h0, h1, h2, hsub] <;> funext a <;> fin_cases a <;> simp

/-- The full property is false: three particles on a line through a face of the box, all within 5/3 of their centre, with R200 equal to five.
In one order the whole mass is found within R200; in another order no mass at all. -/
theorem C135_crossing_refuted (c : Cfg ℝ) (hc : c.Pos) (limit : Nat) (o o' : Obj)
    (ho : construct c ⟨[![0, 5, 5], ![2, 5, 5], ![9, 5, 5]], [1, 1, 1], .nested [[0, 1, 2]], .array [5],
      10, 1, .com⟩ = .ok o)
    (ho' : construct c ⟨[![9, 5, 5], ![0, 5, 5], ![2, 5, 5]], [1, 1, 1], .nested [[0, 1, 2]], .array [5],
      10, 1, .com⟩ = .ok o')
    (out out' : Except Err (List (List ℝ)))
    (hrun : EstDensProfs c (fun _ => [0, 1, 2]) limit o [1] [0] out)
    (hrun' : EstDensProfs c (fun _ => [0, 1, 2]) limit o' [1] [0] out') :
    ∃ dens, 0 < dens ∧ out = .ok [[dens]] ∧ out' = .ok [[0]] := by
  have hl := mpch_pos hc.h
  have hms := msunh10_pos hc.h
  have hfp : 0 < c.inL / mpch c.h := div_pos hc.inL hl
  have hgp : 0 < c.inM / msunh10 c.h := div_pos hc.inM hms
  have e1 := est_single c _ limit o _ _ _ _ _ line_sensible.1 (by simp) ho
    [⟨![0, 5, 5], 1⟩, ⟨![2, 5, 5], 1⟩, ⟨![9, 5, 5], 1⟩] (by simp [particlesOf]) out hrun
  have e2 := est_single c _ limit o' _ _ _ _ _ line_sensible.2 (by simp) ho'
    [⟨![9, 5, 5], 1⟩, ⟨![0, 5, 5], 1⟩, ⟨![2, 5, 5], 1⟩] (by simp [particlesOf]) out' hrun'
  set f := c.inL / mpch c.h with hf
  set g := c.inM / msunh10 c.h with hg
  have hL : 0 < 10 * f := by positivity
  have hsc : ∀ x : Vec ℝ, (scale f g ⟨x, 1⟩).pos = fun a => x a * f := fun x => rfl
  have hcy : cyRespectPBCNoRef (([⟨![0, 5, 5], 1⟩, ⟨![2, 5, 5], 1⟩, ⟨![9, 5, 5], 1⟩].map
      (scale f g)).map fun p => p.pos) (10 * f) = ([⟨![0, 5, 5], 1⟩, ⟨![2, 5, 5], 1⟩,
      ⟨![1, 5, 5], 1⟩].map (scale f g)).map fun p => p.pos := by
    simp only [List.map_cons, List.map_nil, hsc]
    rw [cyRespect_eq _ hL]
    simp only [List.map_cons, List.map_nil, cyReflect_scale 10 f hfp, List.cons.injEq, and_true]
    refine ⟨?_, ?_, ?_⟩ <;> funext a <;> congr 1 <;> fin_cases a <;>
      (norm_num [cyReflect, abs_of_neg, abs_of_pos]; try rfl)
  have hcy' : cyRespectPBCNoRef (([⟨![9, 5, 5], 1⟩, ⟨![0, 5, 5], 1⟩, ⟨![2, 5, 5], 1⟩].map
      (scale f g)).map fun p => p.pos) (10 * f) = ([⟨![9, 5, 5], 1⟩, ⟨![10, 5, 5], 1⟩,
      ⟨![8, 5, 5], 1⟩].map (scale f g)).map fun p => p.pos := by
    simp only [List.map_cons, List.map_nil, hsc]
    rw [cyRespect_eq _ hL]
    simp only [List.map_cons, List.map_nil, cyReflect_scale 10 f hfp, List.cons.injEq, and_true]
    refine ⟨?_, ?_, ?_⟩ <;> funext a <;> congr 1 <;> fin_cases a <;>
      (norm_num [cyReflect, abs_of_neg, abs_of_pos]; try rfl)
  have hrad : ∀ x : ℝ, radius ![1 / 3, 5, 5] ⟨![x, 5, 5], 1⟩ = |x - 1 / 3| := by
    intro x
    unfold radius
    rw [← Real.sqrt_sq_eq_abs]
    congr 1
    simp
    ring
  have hprof : ∀ (ps : List (Particle ℝ)) (x y z : ℝ),
      ps.map (fun p => p.mass) = [1 * g, 1 * g, 1 * g] →
      cyRespectPBCNoRef (ps.map fun p => p.pos) (10 * f) =
        ([⟨![x, 5, 5], 1⟩, ⟨![y, 5, 5], 1⟩, ⟨![z, 5, 5], 1⟩].map (scale f g)).map (fun p => p.pos) →
      aloneProfile (10 * f) [1e-8, 1] ⟨ps, fun a => (![1 / 3, 5, 5] : Vec ℝ) a * f, 5 * f⟩ =
        [massBetween ![1 / 3, 5, 5] [⟨![x, 5, 5], 1⟩, ⟨![y, 5, 5], 1⟩, ⟨![z, 5, 5], 1⟩] (1e-8 * 5) (1 * 5) * g /
          shellVolume (1e-8 * 5 * f) (1 * 5 * f)] := by
    intro ps x y z hm hp
    have hlen : ps.length = 3 := by
      have := congrArg List.length hm
      simpa using this
    unfold aloneProfile
    simp only
    rw [hp, hm]
    have : List.zipWith Particle.mk (([⟨![x, 5, 5], 1⟩, ⟨![y, 5, 5], 1⟩, ⟨![z, 5, 5], 1⟩].map (scale f g)).map (fun p => p.pos))
        [1 * g, 1 * g, 1 * g] = [⟨![x, 5, 5], 1⟩, ⟨![y, 5, 5], 1⟩, ⟨![z, 5, 5], 1⟩].map (scale f g) := rfl
    rw [this, C27_profile _ _ _ (by positivity) _ (by simp; norm_num) _ (by simp [hlen])]
    simp only [bins, List.tail_cons, List.zip_cons_cons, List.zip_nil_right, List.map_cons (f := fun e : ℝ × ℝ => _),
      List.map_nil (f := fun e : ℝ × ℝ => _), List.cons.injEq, and_true]
    rw [← mul_assoc, ← mul_assoc, massBetween_scale f g hfp]
  have hvol : 0 < shellVolume (1e-8 * 5 * f) (1 * 5 * f) := by
    unfold shellVolume
    have h1 : (1e-8 * 5 * f) ^ 3 < (1 * 5 * f) ^ 3 := by
      apply pow_lt_pow_left₀ _ (by positivity) (by norm_num)
      nlinarith
    have := Real.pi_pos
    have h2 : 0 < (1 * 5 * f) ^ 3 - (1e-8 * 5 * f) ^ 3 := by linarith
    positivity
  have p1 := hprof _ 0 2 1 rfl hcy
  have p2 := hprof _ 9 10 8 rfl hcy'
  obtain ⟨hc1, hc2⟩ := line_centre f g hfp hgp limit
  have m1 : massBetween ![1 / 3, 5, 5] [⟨![0, 5, 5], 1⟩, ⟨![2, 5, 5], 1⟩, ⟨![1, 5, 5], 1⟩] (1e-8 * 5) (1 * 5) = 3 := by
    unfold massBetween
    simp only [List.filter_cons, List.filter_nil, hrad]
    norm_num [abs_of_pos, abs_of_neg]
  have m2 : massBetween ![1 / 3, 5, 5] [⟨![9, 5, 5], 1⟩, ⟨![10, 5, 5], 1⟩, ⟨![8, 5, 5], 1⟩] (1e-8 * 5) (1 * 5) = 0 := by
    unfold massBetween
    simp only [List.filter_cons, List.filter_nil, hrad]
    norm_num [abs_of_pos, abs_of_neg]
  rw [m1] at p1
  rw [m2] at p2
  unfold profilesOf at e1 e2
  rw [List.mapM_cons, List.mapM_nil] at e1 e2
  simp only [hc1, p1, Option.map_some, Option.bind_eq_bind, Option.bind_some, Option.pure_def, estOut, internalLM_eq,
    Except.toOption] at e1
  simp only [hc2, p2, Option.map_some, Option.bind_eq_bind, Option.bind_some, Option.pure_def, estOut, internalLM_eq,
    Except.toOption] at e2
  refine ⟨_, ?_, e1, ?_⟩
  · have h1 := hc.outL
    have h2 := hc.outM
    have h3 : (0 : ℝ) < massUnit := by norm_num [massUnit]
    positivity
  · rw [e2]
    show Except.ok [[_]] = _
    simp

/-- Both objects of `C135_crossing_refuted` can be made, and both calls have an outcome. -/
example (c : Cfg ℝ) (limit : Nat) : ∃ o o',
    construct c ⟨[![0, 5, 5], ![2, 5, 5], ![9, 5, 5]], [1, 1, 1], .nested [[0, 1, 2]], .array [5], 10, 1, .com⟩ = .ok o ∧
    construct c ⟨[![9, 5, 5], ![0, 5, 5], ![2, 5, 5]], [1, 1, 1], .nested [[0, 1, 2]], .array [5], 10, 1, .com⟩ = .ok o' ∧
    (∃ out, EstDensProfs c (fun _ => [0, 1, 2]) limit o [1] [0] out) ∧
    ∃ out', EstDensProfs c (fun _ => [0, 1, 2]) limit o' [1] [0] out' := by
  have hsel : GoodSelection [0] (resolved 1 [([0, 1, 2], (5 : ℝ))]).length := by
    have hres : resolved 1 [([0, 1, 2], (5 : ℝ))] = [([0, 1, 2], 5)] := by simp [resolved]
    rw [hres]; exact ⟨by simp, by simp, by simp⟩
  have h1 := construct_eq c [![0, 5, 5], ![2, 5, 5], ![9, 5, 5]] [1, 1, 1] 10 [([0, 1, 2], 5)] 1 .com rfl (by simp)
  have h2 := construct_eq c [![9, 5, 5], ![0, 5, 5], ![2, 5, 5]] [1, 1, 1] 10 [([0, 1, 2], 5)] 1 .com rfl (by simp)
  exact ⟨_, _, h1, h2, C96_outcome_exists c c _ _ _ _ 1 le_rfl .com line_sensible.1 _ limit _ h1 _ _ hsel,
    C96_outcome_exists c c _ _ _ _ 1 le_rfl .com line_sensible.2 _ limit _ h2 _ _ hsel⟩

/-- Non-vacuity: in a larger box the same three particles meet the hypotheses of the theorems above. -/
example : Sensible [![0, 5, 5], ![2, 5, 5], ![9, 5, (5 : ℝ)]] [1, 1, 1] 20 [([0, 1, 2], 5)] ∧
    Sensible [![9, 5, 5], ![0, 5, 5], ![2, 5, (5 : ℝ)]] [1, 1, 1] 20 [([2, 1, 0], 5)] ∧
    Renumbered turn [![0, 5, 5], ![2, 5, 5], ![9, 5, (5 : ℝ)]] [1, 1, 1]
      [![9, 5, 5], ![0, 5, 5], ![2, 5, (5 : ℝ)]] [1, 1, 1] ∧
    SameObjects turn [([0, 1, 2], 5)] [([2, 1, 0], 5)] ∧
    (∀ obj ∈ resolved 1 [([0, 1, 2], (5 : ℝ))],
      NotCrossing 20 (particlesOf [![0, 5, 5], ![2, 5, 5], ![9, 5, (5 : ℝ)]] [1, 1, 1] obj.1)) := by
  refine ⟨?_, ?_, line_renumbered.1, .cons ⟨by decide, rfl⟩ .nil, ?_⟩
  iterate 2
    refine ⟨rfl, by norm_num, ?_, ?_, by simp, ?_⟩
    · intro x hx a
      simp only [List.mem_cons, List.not_mem_nil, or_false] at hx
      rcases hx with rfl | rfl | rfl <;> fin_cases a <;> norm_num
    · intro m hm
      simp only [List.mem_cons, List.not_mem_nil, or_false] at hm
      rcases hm with rfl | rfl | rfl <;> norm_num
    · intro o ho i hi
      simp only [List.mem_cons, List.not_mem_nil, or_false] at ho
      subst ho
      simp only [List.mem_cons, List.not_mem_nil, or_false] at hi
      rcases hi with rfl | rfl | rfl <;> simp
  · intro obj hobj
    have hres : resolved 1 [([0, 1, 2], (5 : ℝ))] = [([0, 1, 2], 5)] := by simp [resolved]
    rw [hres, List.mem_singleton] at hobj
    subst hobj
    have hps : particlesOf [![0, 5, 5], ![2, 5, 5], ![9, 5, (5 : ℝ)]] [1, 1, 1] [0, 1, 2] =
        [⟨![0, 5, 5], 1⟩, ⟨![2, 5, 5], 1⟩, ⟨![9, 5, 5], 1⟩] := by simp [particlesOf]
    intro p hp q hq a
    simp only [hps] at hp hq
    have bd : ∀ p ∈ ([⟨![0, 5, 5], 1⟩, ⟨![2, 5, 5], 1⟩, ⟨![9, 5, 5], 1⟩] : List (Particle ℝ)), 0 ≤ p.pos a ∧ p.pos a ≤ 10 := by
      intro p hp
      simp only [List.mem_cons, List.not_mem_nil, or_false] at hp
      rcases hp with rfl | rfl | rfl <;> fin_cases a <;> norm_num
    rw [abs_le]
    constructor <;> linarith [(bd p hp).1, (bd p hp).2, (bd q hq).1, (bd q hq).2]

end Verif.Api
