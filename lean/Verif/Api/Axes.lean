import Verif.Api.Renumber
import Verif.Api.Scaled

/-!
# Names of the axes (C137)
-/

set_option linter.unusedSectionVars false

namespace Verif.Api

open Verif.Units Verif.Catalogue Verif.Periodic Verif.Binning Verif.Par
open Verif.Shapes (Solver Settings ObjData Pt Part Morph Kind aloneShapes positionPts pureLocal pureGlobal GoodSolver SameShape turnPt
  pureLoop_turn localSpread_turn sameShape_zero sameShape_start report nanZero UpToSign)
open Matrix (mulVec)

/-! ## Specification -/

/-- The same positions with other names of the axes: the new axis `a` is the old axis `σ a`. -/
def renameAxes (σ : Fin 3 ≃ Fin 3) (xyz : List (Vec ℝ)) : List (Vec ℝ) := xyz.map fun x a => x (σ a)

/-- The same entry with other names of the axes. -/
structure RenamedEntry (σ : Fin 3 ≃ Fin 3) (e e' : ShapeEntry) : Prop where
  d : e'.d = e.d
  q : e'.q = e.q
  s : e'.s = e.s
  conv : e'.conv = e.conv
  axes : ∀ q s, e.q = some q → e.s = some s → 0 < s → s < q → q < 1 →
    SameAxis (fun a => e.major (σ a)) e'.major ∧ SameAxis (fun a => e.inter (σ a)) e'.inter ∧
      SameAxis (fun a => e.minor (σ a)) e'.minor

/-! ## One object -/

theorem relabel_one (σ : Fin 3 ≃ Fin 3) (v : Vec ℝ) : relabel σ 1 v = fun a => v (σ a) := by
  funext a
  simp [relabel]

theorem particlesOf_rename (σ : Fin 3 ≃ Fin 3) (xyz : List (Vec ℝ)) (masses : List ℝ) (idx : List Nat) :
    particlesOf (renameAxes σ xyz) masses idx = relabelAll σ 1 (particlesOf xyz masses idx) := by
  unfold particlesOf renameAxes relabelAll
  rw [List.map_filterMap]
  apply List.filterMap_congr
  intro i _
  rw [List.getElem?_map]
  cases xyz[i]? with
  | none => rfl
  | some x =>
    cases masses[i]? with
    | none => rfl
    | some m => simp [relabel_one]

theorem scale_relabel (σ : Fin 3 ≃ Fin 3) (f g : ℝ) (ps : List (Particle ℝ)) :
    (relabelAll σ 1 ps).map (scale f g) = relabelAll σ 1 (ps.map (scale f g)) := by
  unfold relabelAll
  rw [List.map_map, List.map_map]
  apply List.map_congr_left
  intro p _
  simp [scale, relabel_one]

theorem notCrossing_relabel (σ : Fin 3 ≃ Fin 3) {L : ℝ} {ps : List (Particle ℝ)} (h : NotCrossing L ps) :
    NotCrossing L (relabelAll σ 1 ps) := by
  intro p hp q hq a
  obtain ⟨p, hp', rfl⟩ := List.mem_map.1 hp
  obtain ⟨q, hq', rfl⟩ := List.mem_map.1 hq
  simpa [relabel] using h p hp' q hq' (σ a)

theorem dist2_relabel (σ : Fin 3 ≃ Fin 3) (u v : Vec ℝ) : dist2 (relabel σ 1 u) (relabel σ 1 v) = dist2 u v := by
  have := sum_perm σ fun i => (u i - v i) ^ 2
  unfold dist2
  simp only [relabel, one_mul]
  linarith

theorem radius_relabel (σ : Fin 3 ≃ Fin 3) (v : Vec ℝ) (p : Particle ℝ) :
    radius (relabel σ 1 v) ⟨relabel σ 1 p.pos, p.mass⟩ = radius v p := by
  have := sum_perm σ fun i => (v i - p.pos i) ^ 2
  unfold radius
  simp only [relabel, one_mul]
  rw [this]

theorem aloneProfile_relabel (σ : Fin 3 ≃ Fin 3) (L : ℝ) (hL : 0 < L) (edges : List ℝ) (ps : List (Particle ℝ))
    (h : NotCrossing L ps) (v : Vec ℝ) (r : ℝ) :
    aloneProfile L edges ⟨relabelAll σ 1 ps, relabel σ 1 v, r⟩ = aloneProfile L edges ⟨ps, v, r⟩ := by
  unfold aloneProfile
  simp only
  rw [cy_of_notCrossing L hL _ (notCrossing_relabel σ h), cy_of_notCrossing L hL _ h,
    densProfSph_eq _ _ _ _ _ (by simp [relabelAll]), densProfSph_eq _ _ _ _ _ (by simp)]
  apply List.map_congr_left
  intro e _
  unfold relabelAll
  rw [List.filter_map, List.map_map]
  have : (qSph (relabel σ 1 v) r e.1 e.2 ∘ fun p : Particle ℝ => (⟨relabel σ 1 p.pos, p.mass⟩ : Particle ℝ)) =
      qSph v r e.1 e.2 := by
    funext p
    simp only [Function.comp, qSph, dist2_relabel]
  rw [this]
  rfl

theorem massDistances_relabel (σ : Fin 3 ≃ Fin 3) (L : ℝ) (hL : 0 < L) (ps : List (Particle ℝ)) (h : NotCrossing L ps)
    (v : Vec ℝ) : massDistances L (relabel σ 1 v) (relabelAll σ 1 ps) = massDistances L v ps := by
  unfold massDistances
  rw [cy_of_notCrossing L hL _ (notCrossing_relabel σ h), cy_of_notCrossing L hL _ h]
  unfold relabelAll
  rw [List.map_map]
  apply List.map_congr_left
  intro p _
  simp only [Function.comp_def, radius_relabel]

/-- The exchange of axes as a matrix. -/
def axesMatrix (σ : Fin 3 ≃ Fin 3) : Matrix (Fin 3) (Fin 3) ℝ := Matrix.of fun i j => if σ i = j then 1 else 0

theorem axesMatrix_mulVec (σ : Fin 3 ≃ Fin 3) (v : Vec ℝ) : mulVec (axesMatrix σ) v = relabel σ 1 v := by
  funext i
  simp [axesMatrix, mulVec, dotProduct, relabel]

theorem axesMatrix_orth (σ : Fin 3 ≃ Fin 3) : (axesMatrix σ).transpose * axesMatrix σ = 1 := by
  ext i j
  rw [Matrix.mul_apply]
  simp only [Matrix.transpose_apply, axesMatrix, Matrix.of_apply]
  rw [Equiv.sum_comp σ fun k => (if k = i then (1 : ℝ) else 0) * if k = j then 1 else 0]
  simp [Matrix.one_apply, eq_comm]

theorem aloneShapes_relabel (σ : Fin 3 ≃ Fin 3) (st : Settings) (sol : Solver) (hsol : GoodSolver st.solver) (hsol' : GoodSolver sol)
    (hL : 0 < st.box) (whole : Bool)
    (ps : List (Particle ℝ)) (h : NotCrossing st.box ps) (v : Vec ℝ) (r : ℝ) :
    Option.Rel (List.Forall₂ (SameShape (axesMatrix σ)))
      (aloneShapes st (kindOf whole) ⟨ps.map fun p => ⟨p.pos, 0, p.mass⟩, v, r⟩)
      (aloneShapes { st with solver := sol } (kindOf whole)
        ⟨(relabelAll σ 1 ps).map fun p => ⟨p.pos, 0, p.mass⟩, relabel σ 1 v, r⟩) := by
  have hR := axesMatrix_orth σ
  have e1 : ((relabelAll σ 1 ps).map fun p => (⟨p.pos, p.pos, p.mass⟩ : Pt)) =
      (ps.map fun p => (⟨p.pos, p.pos, p.mass⟩ : Pt)).map (turnPt (axesMatrix σ)) := by
    simp [relabelAll, turnPt, axesMatrix_mulVec]
  have hP := positionPts_of_notCrossing { st with solver := sol } hL (relabelAll σ 1 ps) (relabel σ 1 v) r (notCrossing_relabel σ h)
  have hP' := positionPts_of_notCrossing st hL ps v r h
  have hz : ∀ n, List.Forall₂ (SameShape (axesMatrix σ)) (List.replicate n Morph.zero) (List.replicate n Morph.zero) := by
    intro n
    rw [List.forall₂_same]
    intro m hm
    rw [(List.mem_replicate.1 hm).2]; exact sameShape_zero _
  unfold kindOf
  cases whole with
  | true =>
    simp only [if_true]
    unfold aloneShapes
    simp only
    rw [hP, hP', e1, ← axesMatrix_mulVec]
    unfold pureGlobal
    rw [localSpread_turn _ hR]
    split
    · exact .some (hz _)
    · apply pureLoop_turn st sol _ hR hsol hsol'
      intro row hrow
      rw [(List.mem_replicate.1 hrow).2]
      exact sameShape_start _ _
  | false =>
    simp only [Bool.false_eq_true, if_false]
    unfold aloneShapes
    simp only
    rw [hP, hP', e1, ← axesMatrix_mulVec]
    unfold pureLocal
    rw [localSpread_turn _ hR]
    split
    · exact .some (hz _)
    · split
      · exact .some (hz _)
      · apply pureLoop_turn st sol _ hR hsol hsol'
        intro row hrow
        obtain ⟨k, -, rfl⟩ := List.mem_map.1 hrow
        exact sameShape_start _ _

theorem entryOf_renamed (σ : Fin 3 ≃ Fin 3) (fac : ℝ) (m m' : Morph) (h : SameShape (axesMatrix σ) m m') :
    RenamedEntry σ (entryOf fac m) (entryOf fac m') := by
  have hax : ∀ u v : Vec ℝ, UpToSign v (relabel σ 1 u) → SameAxis (fun i => nanZero (u (σ i))) (fun i => nanZero (v i)) := by
    rintro u v (rfl | rfl)
    · exact .inl (by simp [relabel])
    · exact .inr (funext fun i => by
        simp only [Pi.neg_apply, relabel, one_mul]
        exact nanZero_neg one_pos one_pos _)
  refine ⟨?_, ?_, ?_, ?_, ?_⟩
  · simp only [entryOf, report, h.d]
  · simp only [entryOf, report, h.q]
  · simp only [entryOf, report, h.s]
  · simp only [entryOf, report, h.q]
  · intro q s eq es h1 h2 h3
    have e1 : m.q = q := by
      simp only [entryOf, report, nanZero] at eq
      split at eq
      · cases eq
      · exact Option.some.inj eq
    have e2 : m.s = s := by
      simp only [entryOf, report, nanZero] at es
      split at es
      · cases es
      · exact Option.some.inj es
    obtain ⟨a1, a2, a3⟩ := h.axes (by rwa [e2]) (by rwa [e1, e2]) (by rwa [e1])
    simp only [axesMatrix_mulVec] at a1 a2 a3
    exact ⟨hax _ _ a1, hax _ _ a2, hax _ _ a3⟩

/-! ## Both objects -/

section
variable (c : Cfg ℝ) (hc : c.Pos) (σ : Fin 3 ≃ Fin 3)
    (xyz : List (Vec ℝ)) (masses : List ℝ) (box : ℝ) (objs : List (List Nat × ℝ)) (minPtcs : Int)
    (hmin : 1 ≤ minPtcs) (center : Center) (hs : Sensible xyz masses box objs) (o o' : Obj)
    (ho : construct c ⟨xyz, masses, .nested (objs.map Prod.fst), .array (objs.map Prod.snd), box,
      minPtcs, center⟩ = .ok o)
    (ho' : construct c ⟨renameAxes σ xyz, masses, .nested (objs.map Prod.fst), .array (objs.map Prod.snd), box,
      minPtcs, center⟩ = .ok o')
    (sel : List Int) (hsel : GoodSelection sel (resolved minPtcs objs).length)
include hc hmin hs ho ho' hsel

theorem both_renamed : ∃ parts r200, selectParticles o sel = .ok parts ∧
    selectParticles o' sel = .ok (parts.map (relabelAll σ 1)) ∧
    fancy o.r200 (sel.map Int.toNat) = some r200 ∧ fancy o'.r200 (sel.map Int.toNat) = some r200 ∧
    r200.length = parts.length ∧ o'.box = o.box ∧ o'.center = o.center ∧ 0 < o.box ∧
    ((∀ z ∈ sel, ∀ obj, (resolved minPtcs objs)[z.toNat]? = some obj → NotCrossing box (particlesOf xyz masses obj.1)) →
      ∀ ps ∈ parts, NotCrossing o.box ps) := by
  have hs' : Sensible (renameAxes σ xyz) masses box objs := by
    refine ⟨by simp [renameAxes, hs.lengths], hs.box_pos, ?_, hs.masses_pos, hs.objects, ?_⟩
    · intro x hx a
      obtain ⟨y, hy, rfl⟩ := List.mem_map.1 hx
      exact hs.inside y hy (σ a)
    · intro ob hob i hi
      simpa [renameAxes] using hs.exist ob hob i hi
  rw [construct_eq c xyz masses box objs minPtcs center hs.lengths hs.objects] at ho
  rw [construct_eq c _ masses box objs minPtcs center hs'.lengths hs'.objects] at ho'
  have ho := Except.ok.inj ho
  have ho' := Except.ok.inj ho'
  have hfp : 0 < c.inL / mpch c.h := div_pos hc.inL (mpch_pos hc.h)
  set u := c.inL / mpch c.h with hu
  set w := c.inM / msunh10 c.h with hw
  obtain ⟨parts, hsp, hplen, hpk⟩ := selected u w xyz masses box objs minPtcs hmin hs o
    (by rw [← ho]) (by rw [← ho]) (by rw [← ho]) (by rw [← ho]) sel hsel
  obtain ⟨parts', hsp', hplen', hpk'⟩ := selected u w _ masses box objs minPtcs hmin hs' o'
    (by rw [← ho']) (by rw [← ho']) (by rw [← ho']) (by rw [← ho']) sel hsel
  have hor : o.r200 = (resolved minPtcs objs).map fun o => o.2 * u := by rw [← ho]
  have hor' : o'.r200 = o.r200 := by rw [hor, ← ho']
  have hbox : o.box = box * u := by rw [← ho]
  obtain ⟨r200, hr⟩ : ∃ r, fancy o.r200 (sel.map Int.toNat) = some r := by
    apply mapM_exists
    intro i hi
    obtain ⟨z, hz, rfl⟩ := List.mem_map.1 hi
    have := hsel.2.2 z hz
    refine ⟨_, List.getElem?_eq_getElem ?_⟩
    rw [hor, List.length_map]
    omega
  have hrl : r200.length = sel.length := by
    rw [(mapM_some_get _ _ _ hr).1]; simp
  have hget : ∀ k (hk : k < sel.length), ∃ obj, (resolved minPtcs objs)[(sel[k]).toNat]? = some obj ∧
      parts[k]? = some ((particlesOf xyz masses obj.1).map (scale u w)) ∧
      parts'[k]? = some ((particlesOf (renameAxes σ xyz) masses obj.1).map (scale u w)) := by
    intro k hk
    have hz := hsel.2.2 sel[k] (List.getElem_mem hk)
    have hlt : (sel[k]).toNat < (resolved minPtcs objs).length := by omega
    have hget := List.getElem?_eq_getElem hlt
    exact ⟨_, hget, (hpk k _ _ (List.getElem?_eq_getElem hk) hget).1, (hpk' k _ _ (List.getElem?_eq_getElem hk) hget).1⟩
  have hpp : parts' = parts.map (relabelAll σ 1) := by
    apply List.ext_getElem?
    intro k
    rw [List.getElem?_map]
    by_cases hk : k < sel.length
    · obtain ⟨obj, -, h1, h1'⟩ := hget k hk
      rw [h1, h1', particlesOf_rename, Option.map_some, scale_relabel]
    · rw [List.getElem?_eq_none (by omega), List.getElem?_eq_none (by omega)]
      rfl
  refine ⟨parts, r200, hsp, hpp ▸ hsp', hr, by rw [hor']; exact hr, by omega, by rw [← ho, ← ho'], by rw [← ho, ← ho'],
    by rw [hbox]; exact mul_pos hs.box_pos hfp, ?_⟩
  intro hpiece ps hps
  obtain ⟨k, hk, rfl⟩ := List.mem_iff_getElem.1 hps
  obtain ⟨obj, h0, h1, -⟩ := hget k (by omega)
  rw [(List.getElem?_eq_some_iff.1 h1).2, hbox]
  exact notCrossing_scale box u w hfp _ (hpiece _ (List.getElem_mem _) obj h0)

variable (choose : Nat → List Nat) (limit : Nat) (c' : Cfg ℝ)

/-- C137. Give the axes other names.  Masses stay the same and centres are renamed along, for all objects, also those which cross a face of
the box. -/
theorem C137_centres (out out' : Except Err (List (Vec ℝ × ℝ)))
    (hrun : GetMassesCenters c' choose limit o sel out) (hrun' : GetMassesCenters c' choose limit o' sel out') :
    out' = out.map fun rows => rows.map fun x => (fun a => x.1 (σ a), x.2) := by
  obtain ⟨parts, r200, h1, h1', h2, h2', h3, h4, h5, h6, -⟩ := both_renamed c hc σ xyz masses box objs minPtcs hmin center hs
    o o' ho ho' sel hsel
  rw [getMassesCenters_fn c' choose limit o sel parts h1 out hrun,
    getMassesCenters_fn c' choose limit o' sel _ h1' out' hrun', h4, h5]
  unfold massesOf
  have key : ((parts.map (relabelAll σ 1)).mapM fun ps =>
      (centreOf choose limit o.box o.center ps).map fun v => (v, totalMass ps)) =
      (parts.mapM fun ps => (centreOf choose limit o.box o.center ps).map fun v => (v, totalMass ps)).map
        (List.map fun x => (relabel σ 1 x.1, x.2)) := by
    rw [← Verif.Shapes.mapM_map_result]
    apply mapM_eq_of_map
    rw [List.map_map]
    apply List.map_congr_left
    intro ps _
    simp only [Function.comp_def]
    rw [C125_masses]
    have : totalMass (relabelAll σ 1 ps) = totalMass ps := by simp [totalMass, relabelAll, Function.comp_def]
    rw [this]
    cases centreOf choose limit o.box o.center ps <;> rfl
  rw [key]
  cases (parts.mapM fun ps => (centreOf choose limit o.box o.center ps).map fun v => (v, totalMass ps)) with
  | none => rfl
  | some xs =>
    simp only [Option.map_some, Except.map, Except.ok.injEq, List.map_map]
    apply List.map_congr_left
    intro x _
    simp [relabel]

variable (hpiece : ∀ z ∈ sel, ∀ obj, (resolved minPtcs objs)[z.toNat]? = some obj →
    NotCrossing box (particlesOf xyz masses obj.1))
include hpiece

/-- C137 (partial). The shapes of selected objects which cross no face of the box: sizes and axis ratios stay the same, axes are renamed
along (or both calls fail in the same way), whatever the schedules of the parallel loops and with any two eigenvalue routines.  Missing: objects
which cross a face (`C137_crossing_refuted`). -/
theorem C137_shapes_partial (sol sol' : Solver) (hsol : GoodSolver sol) (hsol' : GoodSolver sol') (katz : Katz) (whole : Bool)
    (out out' : Except ShapeErr (List (List ShapeEntry)))
    (hrun : GetShapeCat c' sol choose limit o katz whole sel out)
    (hrun' : GetShapeCat c' sol' choose limit o' katz whole sel out') :
    (∃ e, out = .error e ∧ out' = .error e) ∨
    ∃ res res', out = .ok res ∧ out' = .ok res' ∧ List.Forall₂ (List.Forall₂ (RenamedEntry σ)) res res' := by
  obtain ⟨parts, r200, h1, h1', h2, h2', h3, h4, h5, h6, h7⟩ := both_renamed c hc σ xyz masses box objs minPtcs hmin center hs
    o o' ho ho' sel hsel
  have h7 := h7 hpiece
  rw [getShapeCat_fn c' sol choose limit o katz whole sel parts h1 r200 h2 h3 out hrun,
    getShapeCat_fn c' sol' choose limit o' katz whole sel _ h1' _ h2' (by simpa using h3) out' hrun', h4, h5]
  have key : Option.Rel (List.Forall₂ (Option.Rel (List.Forall₂ (SameShape (axesMatrix σ)))))
      ((parts.zip r200).mapM (fun pr => (shapeCentre choose limit o.box o.center pr.1).map fun v =>
        aloneShapes (katz.settings sol o.box) (kindOf whole) ⟨pr.1.map fun p => ⟨p.pos, 0, p.mass⟩, v, pr.2⟩))
      (((parts.map (relabelAll σ 1)).zip r200).mapM
        (fun pr => (shapeCentre choose limit o.box o.center pr.1).map fun v =>
        aloneShapes (katz.settings sol' o.box) (kindOf whole) ⟨pr.1.map fun p => ⟨p.pos, 0, p.mass⟩, v, pr.2⟩)) := by
    rw [List.zip_map_left]
    apply Verif.Shapes.mapM_rel₂
    rintro ⟨ps, r⟩ hpr
    simp only [Prod.map, id_eq]
    have hcen := C125_shapes choose limit o.box o.center ps σ 1 one_pos
    rw [one_mul] at hcen
    rw [hcen]
    cases shapeCentre choose limit o.box o.center ps with
    | none => exact .none
    | some v =>
      exact .some (aloneShapes_relabel σ (katz.settings sol o.box) sol' hsol hsol' h6 whole ps (h7 ps (List.of_mem_zip hpr).1) v r)
  unfold shapesOf
  revert key
  generalize (parts.zip r200).mapM (fun pr => (shapeCentre choose limit o.box o.center pr.1).map fun v =>
        aloneShapes (katz.settings sol o.box) (kindOf whole) ⟨pr.1.map fun p => ⟨p.pos, 0, p.mass⟩, v, pr.2⟩) = A
  generalize ((parts.map (relabelAll σ 1)).zip r200).mapM
        (fun pr => (shapeCentre choose limit o.box o.center pr.1).map fun v =>
        aloneShapes (katz.settings sol' o.box) (kindOf whole) ⟨pr.1.map fun p => ⟨p.pos, 0, p.mass⟩, v, pr.2⟩) = B
  intro key
  cases key with
  | none => exact .inl ⟨_, rfl, rfl⟩
  | @some xs xs' hr =>
    dsimp only
    have h6 : Option.Rel (List.Forall₂ (List.Forall₂ (SameShape (axesMatrix σ)))) (xs.mapM id) (xs'.mapM id) := by
      clear hrun hrun'
      induction hr with
      | nil => exact .some .nil
      | @cons a a' l l' h _ ih =>
        rw [List.mapM_cons, List.mapM_cons]
        cases h with
        | none => exact .none
        | some h =>
          simp only [id_eq, Option.bind_eq_bind, Option.bind_some]
          revert ih
          generalize l.mapM id = A
          generalize l'.mapM id = B
          intro ih
          cases ih with
          | none => exact .none
          | some ih => exact .some (.cons h ih)
    revert h6
    generalize xs.mapM id = A
    generalize xs'.mapM id = B
    intro h6
    cases h6 with
    | none => exact .inl ⟨_, rfl, rfl⟩
    | some h6 =>
      refine .inr ⟨_, _, rfl, rfl, ?_⟩
      rw [List.forall₂_map_left_iff, List.forall₂_map_right_iff]
      refine h6.imp fun row row' hrow => ?_
      rw [List.forall₂_map_left_iff, List.forall₂_map_right_iff]
      exact hrow.imp fun m m' h => entryOf_renamed σ _ m m' h

/-- C137 (partial). Density profiles (spherical shells) of selected objects which cross no face of the box stay the same. -/
theorem C137_profiles_partial (radii : List ℝ) (hradii : radii ≠ [])
    (out out' : Except Err (List (List ℝ)))
    (hrun : EstDensProfs c' choose limit o radii sel out) (hrun' : EstDensProfs c' choose limit o' radii sel out') :
    out' = out := by
  obtain ⟨parts, r200, h1, h1', h2, h2', h3, h4, h5, h6, h7⟩ := both_renamed c hc σ xyz masses box objs minPtcs hmin center hs
    o o' ho ho' sel hsel
  have h7 := h7 hpiece
  obtain ⟨edges, hedges⟩ : ∃ e, sphEdges radii = some e := by
    unfold sphEdges
    rw [List.getLast?_eq_some_getLast hradii]
    exact ⟨_, rfl⟩
  rw [estDensProfs_fn c' choose limit o radii edges hedges sel parts h1 r200 h2 h3 out hrun,
    estDensProfs_fn c' choose limit o' radii edges hedges sel _ h1' _ h2' (by simpa using h3) out' hrun', h4, h5]
  unfold profilesOf
  rw [List.zip_map_left, mapM_eq_of_map]
  rw [List.map_map]
  apply List.map_congr_left
  rintro ⟨ps, r⟩ hpr
  simp only [Function.comp_def, Prod.map, id_eq]
  rw [C125_masses]
  cases centreOf choose limit o.box o.center ps with
  | none => rfl
  | some v =>
    simp only [Option.map_some]
    rw [aloneProfile_relabel σ o.box h6 edges ps (h7 ps (List.of_mem_zip hpr).1)]

/-- C137 (partial). The same for kernel-based density profiles. -/
theorem C137_kernel_partial (radii : List ℝ)
    (out out' : Except KernelErr (List (List ℝ)))
    (hrun : EstDensProfsKernel c' choose limit o radii sel out)
    (hrun' : EstDensProfsKernel c' choose limit o' radii sel out') : out' = out := by
  obtain ⟨parts, r200, h1, h1', h2, h2', h3, h4, h5, h6, h7⟩ := both_renamed c hc σ xyz masses box objs minPtcs hmin center hs
    o o' ho ho' sel hsel
  have h7 := h7 hpiece
  rw [estDensProfsKernel_fn c' choose limit o radii sel parts h1 r200 h2 out hrun,
    estDensProfsKernel_fn c' choose limit o' radii sel _ h1' _ h2' out' hrun', h4, h5, List.zip_map_left]
  have key : ∀ l : List (List (Particle ℝ) × ℝ), (∀ pr ∈ l, NotCrossing o.box pr.1) →
      kernelOf choose limit o.box o.center radii (l.map (Prod.map (relabelAll σ 1) id)) =
      kernelOf choose limit o.box o.center radii l := by
    intro l hl
    induction l with
    | nil => rfl
    | cons pr l ih =>
      obtain ⟨ps, r⟩ := pr
      rw [List.map_cons]
      unfold kernelOf
      simp only [Prod.map, id_eq]
      rw [C125_masses]
      cases centreOf choose limit o.box o.center ps with
      | none => rfl
      | some v =>
        simp only [Option.map_some]
        rw [massDistances_relabel σ o.box h6 ps (hl _ List.mem_cons_self), ih fun pr hpr => hl pr (List.mem_cons_of_mem _ hpr)]
  rw [key _ fun pr hpr => h7 pr.1 (List.of_mem_zip (by exact hpr)).1]

end

/-! ## Objects crossing a face -/

/-- Exchange of the first and the third axis. -/
def swapXZ : Fin 3 ≃ Fin 3 := Equiv.swap 0 2

theorem renameAxes_line : renameAxes swapXZ [![0, 5, 5], ![2, 5, 5], ![9, 5, (5 : ℝ)]] =
    [![5, 5, 0], ![5, 5, 2], ![5, 5, (9 : ℝ)]] := by
  unfold renameAxes
  simp only [List.map_cons, List.map_nil, List.cons.injEq, and_true]
  refine ⟨?_, ?_, ?_⟩ <;> funext a <;> fin_cases a <;> simp [swapXZ, Equiv.swap_apply_def]

theorem relabelAll_line (f g : ℝ) : relabelAll swapXZ 1 ([⟨![0, 5, 5], 1⟩, ⟨![2, 5, 5], 1⟩, ⟨![9, 5, 5], 1⟩].map (scale f g)) =
    [⟨![5, 5, 0], 1⟩, ⟨![5, 5, 2], 1⟩, ⟨![5, 5, 9], 1⟩].map (scale f g) := by
  unfold relabelAll
  simp only [List.map_cons, List.map_nil, List.cons.injEq, and_true, scale, Particle.mk.injEq]
  refine ⟨?_, ?_, ?_⟩ <;> funext a <;> fin_cases a <;> simp [relabel, swapXZ, Equiv.swap_apply_def]

theorem upright_sensible : Sensible [![5, 5, 0], ![5, 5, 2], ![5, 5, (9 : ℝ)]] [1, 1, 1] 10 [([0, 1, 2], 5)] := by
  refine ⟨rfl, by norm_num, ?_, ?_, by simp, ?_⟩
  · intro x hx a
    simp only [List.mem_cons, List.not_mem_nil, or_false] at hx
    rcases hx with rfl | rfl | rfl <;> fin_cases a <;> norm_num
  · intro m hm
    simp only [List.mem_cons, List.not_mem_nil, or_false] at hm
    rcases hm with rfl | rfl | rfl <;> norm_num
  · intro o ho i hi
    simp only [List.mem_cons, List.not_mem_nil, or_false] at ho
    subst ho
    simp only [List.mem_cons, List.not_mem_nil, or_false] at hi
    rcases hi with rfl | rfl | rfl <;> simp

/-- The full property is false: three particles of equal mass on a line through a face of the box, all within 5/3 of their centre, with
R200 equal to five.  If the line is along the first axis, the whole mass is found within R200; if the first axis and the third are
exchanged, only two thirds of it. -/
theorem C137_crossing_refuted (c : Cfg ℝ) (hc : c.Pos) (limit : Nat) (o o' : Obj)
    (ho : construct c ⟨[![0, 5, 5], ![2, 5, 5], ![9, 5, 5]], [1, 1, 1], .nested [[0, 1, 2]], .array [5],
      10, 1, .com⟩ = .ok o)
    (ho' : construct c ⟨renameAxes swapXZ [![0, 5, 5], ![2, 5, 5], ![9, 5, 5]], [1, 1, 1], .nested [[0, 1, 2]], .array [5],
      10, 1, .com⟩ = .ok o')
    (out out' : Except Err (List (List ℝ)))
    (hrun : EstDensProfs c (fun _ => [0, 1, 2]) limit o [1] [0] out)
    (hrun' : EstDensProfs c (fun _ => [0, 1, 2]) limit o' [1] [0] out') :
    ∃ dens, 0 < dens ∧ out = .ok [[dens]] ∧ out' = .ok [[2 / 3 * dens]] := by
  rw [renameAxes_line] at ho'
  have hl := mpch_pos hc.h
  have hms := msunh10_pos hc.h
  have hfp : 0 < c.inL / mpch c.h := div_pos hc.inL hl
  have hgp : 0 < c.inM / msunh10 c.h := div_pos hc.inM hms
  have e1 := est_single c _ limit o _ _ _ _ _ line_sensible.1 (by simp) ho
    [⟨![0, 5, 5], 1⟩, ⟨![2, 5, 5], 1⟩, ⟨![9, 5, 5], 1⟩] (by simp [particlesOf]) out hrun
  have e2 := est_single c _ limit o' _ _ _ _ _ upright_sensible (by simp) ho'
    [⟨![5, 5, 0], 1⟩, ⟨![5, 5, 2], 1⟩, ⟨![5, 5, 9], 1⟩] (by simp [particlesOf]) out' hrun'
  set f := c.inL / mpch c.h with hf
  set g := c.inM / msunh10 c.h with hg
  have hL : 0 < 10 * f := by positivity
  have hsc : ∀ x : Vec ℝ, (scale f g ⟨x, 1⟩).pos = fun a => x a * f := fun x => rfl
  have hcy : cyRespectPBCNoRef (([⟨![0, 5, 5], 1⟩, ⟨![2, 5, 5], 1⟩, ⟨![9, 5, 5], 1⟩].map
      (scale f g)).map fun p => p.pos) (10 * f) = ([⟨![0, 5, 5], 1⟩, ⟨![2, 5, 5], 1⟩,
      ⟨![1, 5, 5], 1⟩].map (scale f g)).map fun p => p.pos := by
    simp only [List.map_cons, List.map_nil, hsc]
    rw [cyRespect_eq _ hL]
    simp only [List.map_cons, List.map_nil, cyReflect_scale 10 f hfp, List.cons.injEq, and_true]
    refine ⟨?_, ?_, ?_⟩ <;> funext a <;> congr 1 <;> fin_cases a <;>
      (norm_num [cyReflect, abs_of_neg, abs_of_pos]; try rfl)
  have hcy' : cyRespectPBCNoRef (([⟨![5, 5, 0], 1⟩, ⟨![5, 5, 2], 1⟩, ⟨![5, 5, 9], 1⟩].map
      (scale f g)).map fun p => p.pos) (10 * f) = ([⟨![5, 5, 0], 1⟩, ⟨![5, 5, 2], 1⟩,
      ⟨![5, 5, 9], 1⟩].map (scale f g)).map fun p => p.pos := by
    simp only [List.map_cons, List.map_nil, hsc]
    rw [cyRespect_eq _ hL]
    simp only [List.map_cons, List.map_nil, cyReflect_scale 10 f hfp, List.cons.injEq, and_true]
    refine ⟨?_, ?_, ?_⟩ <;> funext a <;> congr 1 <;> fin_cases a <;>
      (norm_num [cyReflect, abs_of_neg, abs_of_pos]; try rfl)
  have hrad : ∀ x : ℝ, radius ![1 / 3, 5, 5] ⟨![x, 5, 5], 1⟩ = |x - 1 / 3| := by
    intro x
    unfold radius
    rw [← Real.sqrt_sq_eq_abs]
    congr 1
    simp
    ring
  have hrad' : ∀ x : ℝ, radius ![5, 5, 1 / 3] ⟨![5, 5, x], 1⟩ = |x - 1 / 3| := by
    intro x
    unfold radius
    rw [← Real.sqrt_sq_eq_abs]
    congr 1
    simp
    ring
  have hprof : ∀ (ps : List (Particle ℝ)) (x y z v : Vec ℝ),
      ps.map (fun p => p.mass) = [1 * g, 1 * g, 1 * g] →
      cyRespectPBCNoRef (ps.map fun p => p.pos) (10 * f) =
        ([⟨x, 1⟩, ⟨y, 1⟩, ⟨z, 1⟩].map (scale f g)).map (fun p => p.pos) →
      aloneProfile (10 * f) [1e-8, 1] ⟨ps, fun a => v a * f, 5 * f⟩ =
        [massBetween v [⟨x, 1⟩, ⟨y, 1⟩, ⟨z, 1⟩] (1e-8 * 5) (1 * 5) * g /
          shellVolume (1e-8 * 5 * f) (1 * 5 * f)] := by
    intro ps x y z v hm hp
    have hlen : ps.length = 3 := by
      have := congrArg List.length hm
      simpa using this
    unfold aloneProfile
    simp only
    rw [hp, hm]
    have : List.zipWith Particle.mk (([⟨x, 1⟩, ⟨y, 1⟩, ⟨z, 1⟩].map (scale f g)).map (fun p => p.pos))
        [1 * g, 1 * g, 1 * g] = [⟨x, 1⟩, ⟨y, 1⟩, ⟨z, 1⟩].map (scale f g) := rfl
    rw [this, C27_profile _ _ _ (by positivity) _ (by simp; norm_num) _ (by simp [hlen])]
    simp only [bins, List.tail_cons, List.zip_cons_cons, List.zip_nil_right, List.map_cons (f := fun e : ℝ × ℝ => _),
      List.map_nil (f := fun e : ℝ × ℝ => _), List.cons.injEq, and_true]
    rw [← mul_assoc, ← mul_assoc, massBetween_scale f g hfp]
  have hvol : 0 < shellVolume (1e-8 * 5 * f) (1 * 5 * f) := by
    unfold shellVolume
    have h1 : (1e-8 * 5 * f) ^ 3 < (1 * 5 * f) ^ 3 := by
      apply pow_lt_pow_left₀ _ (by positivity) (by norm_num)
      nlinarith
    have := Real.pi_pos
    have h2 : 0 < (1 * 5 * f) ^ 3 - (1e-8 * 5 * f) ^ 3 := by linarith
    positivity
  have p1 := hprof _ _ _ _ ![1 / 3, 5, 5] rfl hcy
  have p2 := hprof _ _ _ _ ![5, 5, 1 / 3] rfl hcy'
  obtain ⟨hc1, -⟩ := line_centre f g hfp hgp limit
  have hc2 : centreOf (fun _ => [0, 1, 2]) limit (10 * f) .com
      ([⟨![5, 5, 0], 1⟩, ⟨![5, 5, 2], 1⟩, ⟨![5, 5, 9], 1⟩].map (scale f g)) =
        some (fun a => (![5, 5, 1 / 3] : Vec ℝ) a * f) := by
    rw [← relabelAll_line, C125_masses, hc1]
    simp only [Option.map_some, Option.some.injEq]
    funext a
    fin_cases a <;> simp [relabel, swapXZ, Equiv.swap_apply_def]
  have m1 : massBetween ![1 / 3, 5, 5] [⟨![0, 5, 5], 1⟩, ⟨![2, 5, 5], 1⟩, ⟨![1, 5, 5], 1⟩] (1e-8 * 5) (1 * 5) = 3 := by
    unfold massBetween
    simp only [List.filter_cons, List.filter_nil, hrad]
    norm_num [abs_of_pos, abs_of_neg]
  have m2 : massBetween ![5, 5, 1 / 3] [⟨![5, 5, 0], 1⟩, ⟨![5, 5, 2], 1⟩, ⟨![5, 5, 9], 1⟩] (1e-8 * 5) (1 * 5) = 2 := by
    unfold massBetween
    simp only [List.filter_cons, List.filter_nil, hrad']
    norm_num [abs_of_pos, abs_of_neg]
  rw [m1] at p1
  rw [m2] at p2
  unfold profilesOf at e1 e2
  rw [List.mapM_cons, List.mapM_nil] at e1 e2
  simp only [hc1, p1, Option.map_some, Option.bind_eq_bind, Option.bind_some, Option.pure_def, estOut, internalLM_eq,
    Except.toOption] at e1
  simp only [hc2, p2, Option.map_some, Option.bind_eq_bind, Option.bind_some, Option.pure_def, estOut, internalLM_eq,
    Except.toOption] at e2
  refine ⟨_, ?_, e1, ?_⟩
  · have h1 := hc.outL
    have h2 := hc.outM
    have h3 : (0 : ℝ) < massUnit := by norm_num [massUnit]
    positivity
  · rw [e2]
    show Except.ok [[_]] = Except.ok [[_]]
    congr 3
    ring

/-- Both objects of `C137_crossing_refuted` can be made, and both calls have an outcome. -/
example (c : Cfg ℝ) (limit : Nat) : ∃ o o',
    construct c ⟨[![0, 5, 5], ![2, 5, 5], ![9, 5, 5]], [1, 1, 1], .nested [[0, 1, 2]], .array [5], 10, 1, .com⟩ = .ok o ∧
    construct c ⟨renameAxes swapXZ [![0, 5, 5], ![2, 5, 5], ![9, 5, 5]], [1, 1, 1], .nested [[0, 1, 2]], .array [5],
      10, 1, .com⟩ = .ok o' ∧
    (∃ out, EstDensProfs c (fun _ => [0, 1, 2]) limit o [1] [0] out) ∧
    ∃ out', EstDensProfs c (fun _ => [0, 1, 2]) limit o' [1] [0] out' := by
  rw [renameAxes_line]
  have hsel : GoodSelection [0] (resolved 1 [([0, 1, 2], (5 : ℝ))]).length := by
    have hres : resolved 1 [([0, 1, 2], (5 : ℝ))] = [([0, 1, 2], 5)] := by simp [resolved]
    rw [hres]; exact ⟨by simp, by simp, by simp⟩
  have h1 := construct_eq c [![0, 5, 5], ![2, 5, 5], ![9, 5, 5]] [1, 1, 1] 10 [([0, 1, 2], 5)] 1 .com rfl (by simp)
  have h2 := construct_eq c [![5, 5, 0], ![5, 5, 2], ![5, 5, 9]] [1, 1, 1] 10 [([0, 1, 2], 5)] 1 .com rfl (by simp)
  exact ⟨_, _, h1, h2, C96_outcome_exists c c _ _ _ _ 1 le_rfl .com line_sensible.1 _ limit _ h1 _ _ hsel,
    C96_outcome_exists c c _ _ _ _ 1 le_rfl .com upright_sensible _ limit _ h2 _ _ hsel⟩

/-- Non-vacuity: in a larger box the same three particles meet the hypotheses of the theorems above. -/
example : Sensible [![0, 5, 5], ![2, 5, 5], ![9, 5, (5 : ℝ)]] [1, 1, 1] 20 [([0, 1, 2], 5)] ∧
    GoodSelection [0] (resolved 1 [([0, 1, 2], (5 : ℝ))]).length ∧
    (∀ obj ∈ resolved 1 [([0, 1, 2], (5 : ℝ))],
      NotCrossing 20 (particlesOf [![0, 5, 5], ![2, 5, 5], ![9, 5, (5 : ℝ)]] [1, 1, 1] obj.1)) := by
  have hres : resolved 1 [([0, 1, 2], (5 : ℝ))] = [([0, 1, 2], 5)] := by simp [resolved]
  refine ⟨?_, ?_, ?_⟩
  · refine ⟨rfl, by norm_num, ?_, ?_, by simp, ?_⟩
    · intro x hx a
      simp only [List.mem_cons, List.not_mem_nil, or_false] at hx
      rcases hx with rfl | rfl | rfl <;> fin_cases a <;> norm_num
    · intro m hm
      simp only [List.mem_cons, List.not_mem_nil, or_false] at hm
      rcases hm with rfl | rfl | rfl <;> norm_num
    · intro o ho i hi
      simp only [List.mem_cons, List.not_mem_nil, or_false] at ho
      subst ho
      simp only [List.mem_cons, List.not_mem_nil, or_false] at hi
      rcases hi with rfl | rfl | rfl <;> simp
  · rw [hres]; exact ⟨by simp, by simp, by simp⟩
  · intro obj hobj
    rw [hres, List.mem_singleton] at hobj
    subst hobj
    have hps : particlesOf [![0, 5, 5], ![2, 5, 5], ![9, 5, (5 : ℝ)]] [1, 1, 1] [0, 1, 2] =
        [⟨![0, 5, 5], 1⟩, ⟨![2, 5, 5], 1⟩, ⟨![9, 5, 5], 1⟩] := by simp [particlesOf]
    intro p hp q hq a
    simp only [hps] at hp hq
    have bd : ∀ p ∈ ([⟨![0, 5, 5], 1⟩, ⟨![2, 5, 5], 1⟩, ⟨![9, 5, 5], 1⟩] : List (Particle ℝ)), 0 ≤ p.pos a ∧ p.pos a ≤ 10 := by
      intro p hp
      simp only [List.mem_cons, List.not_mem_nil, or_false] at hp
      rcases hp with rfl | rfl | rfl <;> fin_cases a <;> norm_num
    rw [abs_le]
    constructor <;> linarith [(bd p hp).1, (bd p hp).2, (bd q hq).1, (bd q hq).2]

end Verif.Api
