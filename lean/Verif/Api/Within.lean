import Verif.Api.Sampling
import Verif.Shapes.Within

/-!
# What shapes and density profiles at a radius depend on (C154)
-/

set_option linter.unusedSectionVars false

namespace Verif.Api

open Verif.Units Verif.Catalogue Verif.Periodic Verif.Binning
open Verif.Shapes (Solver GoodSolver Settings Pt Morph aloneShapes positionPts pureLocal pureGlobal pureLoop pureOne shellAt localSpread near pureOne_inner)

/-! ## Specification -/

/-- The particles of an object whose distance from `x` is smaller than `R` (distances and radii are compared as squares). -/
noncomputable def within (x : Vec ℝ) (R : ℝ) (ps : List (Particle ℝ)) : List (Particle ℝ) :=
  ps.filter fun p => decide ((x 0 - p.pos 0) ^ 2 + (x 1 - p.pos 1) ^ 2 + (x 2 - p.pos 2) ^ 2 < R ^ 2)

/-- Not all particles at the same position. -/
def Spread (ps : List (Particle ℝ)) : Prop := ∃ p ∈ ps, ∃ q ∈ ps, p.pos ≠ q.pos

/-- The settings of a shape determination with other radii. -/
def Katz.withRadii (k : Katz) (radii : List ℝ) : Katz := ⟨radii, k.tol, k.wall, k.itMin, k.reduced, k.shellBased⟩

/-- Entry number `i` of object number `k`. -/
def entryAt {α : Type} (rows : List (List α)) (k i : Nat) : Option α := (rows[k]?).bind fun row => row[i]?

/-! ## One object -/

theorem within_scale (f g : ℝ) (hf : 0 < f) (x : Vec ℝ) (R : ℝ) (ps : List (Particle ℝ)) :
    within (fun a => x a * f) (R * f) (ps.map (scale f g)) = (within x R ps).map (scale f g) := by
  unfold within
  rw [List.filter_map]
  congr 1
  apply List.filter_congr
  intro p _
  refine decide_eq_decide.2 ?_
  simp only [scale]
  have h1 : (x 0 * f - p.pos 0 * f) ^ 2 + (x 1 * f - p.pos 1 * f) ^ 2 + (x 2 * f - p.pos 2 * f) ^ 2 =
      ((x 0 - p.pos 0) ^ 2 + (x 1 - p.pos 1) ^ 2 + (x 2 - p.pos 2) ^ 2) * f ^ 2 := by ring
  rw [h1, mul_pow]
  exact mul_lt_mul_iff_left₀ (by positivity)

theorem near_toPts (x : Vec ℝ) (R : ℝ) (ps ps' : List (Particle ℝ)) (h : within x R ps' = within x R ps) :
    (toPts ps').filter (near x R) = (toPts ps).filter (near x R) := by
  have e : ∀ ps : List (Particle ℝ), (toPts ps).filter (near x R) = toPts (within x R ps) := by
    intro ps
    unfold toPts within
    rw [List.filter_map]
    congr 1
  rw [e, e, h]

theorem spread_scale (f g : ℝ) (hf : 0 < f) (ps : List (Particle ℝ)) (h : Spread ps) : Spread (ps.map (scale f g)) := by
  obtain ⟨p, hp, q, hq, hne⟩ := h
  refine ⟨_, List.mem_map_of_mem hp, _, List.mem_map_of_mem hq, ?_⟩
  intro he
  apply hne
  funext a
  have := congrFun he a
  simp only [scale] at this
  exact mul_right_cancel₀ hf.ne' this

theorem spread_local {ps : List (Particle ℝ)} (h : Spread ps) : localSpread (toPts ps) ≠ 0 := by
  obtain ⟨p, hp, q, hq, hne⟩ := h
  intro h0
  rw [Shapes.localSpread_zero_iff] at h0
  exact hne (h0 _ (List.mem_map_of_mem hp) _ (List.mem_map_of_mem hq))

/-- Entry number `i` of the shapes at several radii. -/
theorem local_entry (st : Settings) (ps : List (Particle ℝ)) (hroom : RoomFor st.box ps) (hsp : Spread ps) (v : Vec ℝ) (r : ℝ) (ms : List Morph)
    (h : aloneShapes st .localShape ⟨ps.map fun p => ⟨p.pos, 0, p.mass⟩, v, r⟩ = some ms) (i : Nat) (hi : i < st.radii.length) :
    ms[i]? = if r = 0 then some Morph.zero else
      pureOne (st.config (toPts ps) v v (shellAt st r i).1 (shellAt st r i).2) { Morph.zero with d := (shellAt st r i).1 } := by
  have hP := positionPts_room st ps v r hroom
  change positionPts _ _ = toPts ps at hP
  unfold aloneShapes at h
  simp only at h
  rw [hP] at h
  unfold pureLocal at h
  rw [if_neg (spread_local hsp)] at h
  by_cases hr : r = 0
  · rw [if_pos hr] at h ⊢
    rw [← Option.some.inj h]
    simp [hi]
  · rw [if_neg hr] at h ⊢
    unfold pureLoop at h
    obtain ⟨b, hb, hF⟩ := (mapM_some_get _ _ _ h).2 i (shellAt st r i, { Morph.zero with d := (shellAt st r i).1 })
      (by rw [List.getElem?_map, List.getElem?_range hi]; rfl)
    rw [hb, hF]

theorem global_entry (st : Settings) (ps : List (Particle ℝ)) (hroom : RoomFor st.box ps) (hsp : Spread ps) (v : Vec ℝ) (r : ℝ) (ms : List Morph)
    (h : aloneShapes st .globalShape ⟨ps.map fun p => ⟨p.pos, 0, p.mass⟩, v, r⟩ = some ms) :
    ms[0]? = pureOne (st.config (toPts ps) v v (r + st.safe) none) { Morph.zero with d := r + st.safe } := by
  have hP := positionPts_room st ps v r hroom
  change positionPts _ _ = toPts ps at hP
  unfold aloneShapes at h
  simp only at h
  rw [hP] at h
  unfold pureGlobal at h
  rw [if_neg (spread_local hsp)] at h
  unfold pureLoop at h
  obtain ⟨b, hb, hF⟩ := (mapM_some_get _ _ _ h).2 0 ((r + st.safe, none), { Morph.zero with d := r + st.safe }) (by simp)
  rw [hb, hF]

/-! ## One catalogue -/

section
variable (c : Cfg ℝ) (hc : c.Pos) (xyz : List (Vec ℝ)) (masses : List ℝ) (box : ℝ) (objs : List (List Nat × ℝ)) (minPtcs : Int) (hmin : 1 ≤ minPtcs)
    (hs : PointCloud xyz masses objs) (o : Obj)
    (ho : construct c ⟨xyz, masses, .nested (objs.map Prod.fst), .array (objs.map Prod.snd), box, minPtcs, .com⟩ = .ok o)
    (sel : List Int) (hsel : GoodSelection sel (resolved minPtcs objs).length)
    (k : Nat) (z : Int) (hk : sel[k]? = some z) (obj : List Nat × ℝ) (hobj : (resolved minPtcs objs)[z.toNat]? = some obj)
    (hroom : RoomFor box (particlesOf xyz masses obj.1))
    (choose : Nat → List Nat) (hch : ∀ n, 0 < n → ∃ j ∈ choose n, j < n) (limit : Nat) (c' : Cfg ℝ)
include hc hmin hs ho hsel hk hobj hroom hch

theorem object_of : ∃ parts r200, selectParticles o sel = .ok parts ∧ fancy o.r200 (sel.map Int.toNat) = some r200 ∧
    r200.length = parts.length ∧ o.center = .com ∧ o.box = box * (c.inL / mpch c.h) ∧
    (parts.zip r200)[k]? = some ((particlesOf xyz masses obj.1).map (scale (c.inL / mpch c.h) (c.inM / msunh10 c.h)), obj.2 * (c.inL / mpch c.h)) ∧
    (∀ p ∈ (particlesOf xyz masses obj.1).map (scale (c.inL / mpch c.h) (c.inM / msunh10 c.h)), 0 < p.mass) ∧
    RoomFor (box * (c.inL / mpch c.h)) ((particlesOf xyz masses obj.1).map (scale (c.inL / mpch c.h) (c.inM / msunh10 c.h))) ∧
    centreOf choose limit (box * (c.inL / mpch c.h)) .com ((particlesOf xyz masses obj.1).map (scale (c.inL / mpch c.h) (c.inM / msunh10 c.h))) =
      some (fun a => weightedMean (particlesOf xyz masses obj.1) a * (c.inL / mpch c.h)) ∧
    shapeCentre choose limit (box * (c.inL / mpch c.h)) .com ((particlesOf xyz masses obj.1).map (scale (c.inL / mpch c.h) (c.inM / msunh10 c.h))) =
      some (fun a => weightedMean (particlesOf xyz masses obj.1) a * (c.inL / mpch c.h)) := by
  obtain ⟨hb, hcen, parts, r200, h1, h2, h3, h4, h5⟩ := prepared_of c xyz masses box objs minPtcs hmin .com hs.lengths hs.objects hs.exist
    o ho sel hsel
  have hfp : 0 < c.inL / mpch c.h := div_pos hc.inL (mpch_pos hc.h)
  have hgp : 0 < c.inM / msunh10 c.h := div_pos hc.inM (msunh10_pos hc.h)
  have hpos : ∀ p ∈ (particlesOf xyz masses obj.1).map (scale (c.inL / mpch c.h) (c.inM / msunh10 c.h)), 0 < p.mass := by
    intro p hp
    obtain ⟨q, hq, rfl⟩ := List.mem_map.1 hp
    exact mul_pos (hs.masses_pos _ (mem_particlesOf hq).2) hgp
  have hR := roomFor_scale box (c.inL / mpch c.h) (c.inM / msunh10 c.h) hfp _ hroom
  have hne : (particlesOf xyz masses obj.1).map (scale (c.inL / mpch c.h) (c.inM / msunh10 c.h)) ≠ [] := by
    have hmem := List.mem_of_getElem? hobj
    have hl := particlesOf_length xyz masses hs.lengths obj.1 (hs.exist obj (List.mem_of_mem_filter hmem))
    have h6 := (List.mem_filter.1 hmem).2
    simp only [decide_eq_true_eq] at h6
    intro h0
    have := congrArg List.length h0
    simp only [List.length_map, List.length_nil] at this
    omega
  obtain ⟨-, g2, -, g4⟩ := (⟨fun _ => rfl, hpos, hpos, hne, hR⟩ : Resampled _ _ _).centres choose choose hch hch limit limit
  have hm : weightedMean ((particlesOf xyz masses obj.1).map (scale (c.inL / mpch c.h) (c.inM / msunh10 c.h))) =
      fun a => weightedMean (particlesOf xyz masses obj.1) a * (c.inL / mpch c.h) := by
    funext a; exact weightedMean_scale _ _ hgp.ne' _ a
  rw [hm] at g2 g4
  exact ⟨parts, r200, h1, h2, h3, hcen, hb, h5 k z obj hk hobj, hpos, hR, g2, g4⟩

theorem shape_of (sol : Solver) (katz : Katz) (whole : Bool) (rows : List (List ShapeEntry))
    (hrun : GetShapeCat c' sol choose limit o katz whole sel (.ok rows)) :
    ∃ ms, aloneShapes (katz.settings sol (box * (c.inL / mpch c.h))) (kindOf whole)
      ⟨((particlesOf xyz masses obj.1).map (scale (c.inL / mpch c.h) (c.inM / msunh10 c.h))).map fun p => ⟨p.pos, 0, p.mass⟩,
        fun a => weightedMean (particlesOf xyz masses obj.1) a * (c.inL / mpch c.h), obj.2 * (c.inL / mpch c.h)⟩ = some ms ∧
      rows[k]? = some (ms.map (entryOf (mpch c'.h / c'.outL))) := by
  obtain ⟨parts, r200, h1, h2, h3, h4, h5, h6, -, -, -, h7⟩ := object_of c hc xyz masses box objs minPtcs hmin hs o ho sel hsel k z hk obj hobj
    hroom choose hch limit
  have hfn := getShapeCat_fn c' sol choose limit o katz whole sel parts h1 r200 h2 h3 _ hrun
  have hrows := shapesOf_rows c' sol choose limit o.box o.center katz whole (parts.zip r200)
  rw [← hfn] at hrows
  have hrows : (parts.zip r200).mapM (shapeRow c' sol choose limit o.box o.center katz whole) = some rows := hrows.symm
  obtain ⟨b, hb, hF⟩ := (mapM_some_get _ _ _ hrows).2 k _ h6
  unfold shapeRow at hF
  rw [h4, h5, h7] at hF
  simp only [Option.map_some, Option.bind_some] at hF
  obtain ⟨ms, hms, rfl⟩ := Option.map_eq_some_iff.1 hF
  exact ⟨ms, hms, hb⟩

theorem profile_of (radii edges : List ℝ) (hedges : sphEdges radii = some edges) (rows : List (List ℝ))
    (hrun : EstDensProfs c' choose limit o radii sel (.ok rows)) :
    ∃ row, (estOut c' (aloneProfile (box * (c.inL / mpch c.h)) edges
      ⟨(particlesOf xyz masses obj.1).map (scale (c.inL / mpch c.h) (c.inM / msunh10 c.h)),
        fun a => weightedMean (particlesOf xyz masses obj.1) a * (c.inL / mpch c.h), obj.2 * (c.inL / mpch c.h)⟩)) = .ok row ∧
      rows[k]? = some row := by
  obtain ⟨parts, r200, h1, h2, h3, h4, h5, h6, -, -, h7, -⟩ := object_of c hc xyz masses box objs minPtcs hmin hs o ho sel hsel k z hk obj hobj
    hroom choose hch limit
  have hfn := estDensProfs_fn c' choose limit o radii edges hedges sel parts h1 r200 h2 h3 _ hrun
  have hrows := profilesOf_rows c' choose limit o.box o.center edges (parts.zip r200)
  rw [← hfn] at hrows
  have hrows : (parts.zip r200).mapM (profileRow c' choose limit o.box o.center edges) = some rows := hrows.symm
  obtain ⟨b, hb, hF⟩ := (mapM_some_get _ _ _ hrows).2 k _ h6
  unfold profileRow at hF
  rw [h4, h5, h7] at hF
  simp only [Option.map_some, Option.bind_some] at hF
  refine ⟨b, ?_, hb⟩
  simp only [estOut, internalLM_eq] at hF ⊢
  simpa [Except.toOption] using hF

end

/-! ## Two catalogues -/

section
variable (c : Cfg ℝ) (hc : c.Pos) (xyz xyz' : List (Vec ℝ)) (masses masses' : List ℝ) (box box' : ℝ) (objs objs' : List (List Nat × ℝ))
    (minPtcs minPtcs' : Int) (hmin : 1 ≤ minPtcs) (hmin' : 1 ≤ minPtcs')
    (hs : PointCloud xyz masses objs) (hs' : PointCloud xyz' masses' objs') (o o' : Obj)
    (ho : construct c ⟨xyz, masses, .nested (objs.map Prod.fst), .array (objs.map Prod.snd), box, minPtcs, .com⟩ = .ok o)
    (ho' : construct c ⟨xyz', masses', .nested (objs'.map Prod.fst), .array (objs'.map Prod.snd), box', minPtcs', .com⟩ = .ok o')
    (sel sel' : List Int) (hsel : GoodSelection sel (resolved minPtcs objs).length)
    (hsel' : GoodSelection sel' (resolved minPtcs' objs').length)
    (k k' : Nat) (z z' : Int) (hk : sel[k]? = some z) (hk' : sel'[k']? = some z') (obj obj' : List Nat × ℝ)
    (hobj : (resolved minPtcs objs)[z.toNat]? = some obj) (hobj' : (resolved minPtcs' objs')[z'.toNat]? = some obj')
    (hroom : RoomFor box (particlesOf xyz masses obj.1)) (hroom' : RoomFor box' (particlesOf xyz' masses' obj'.1))
    (hrad : obj'.2 = obj.2) (hcen : weightedMean (particlesOf xyz' masses' obj'.1) = weightedMean (particlesOf xyz masses obj.1))
    (choose choose' : Nat → List Nat) (hch : ∀ n, 0 < n → ∃ j ∈ choose n, j < n)
    (hch' : ∀ n, 0 < n → ∃ j ∈ choose' n, j < n) (limit limit' : Nat) (c' : Cfg ℝ)
include hc hmin hmin' hs hs' ho ho' hsel hsel' hk hk' hobj hobj' hroom hroom' hrad hcen hch hch'

section
variable (hsp : Spread (particlesOf xyz masses obj.1)) (hsp' : Spread (particlesOf xyz' masses' obj'.1)) (sol : Solver) (hsol : GoodSolver sol)
include hsp hsp' hsol

/-- C154. Shapes at several radii: the entry of an object at a radius `x` depends on nothing but the radius and the centre of the object, its particles within
`x` times the radius of the object and, for ellipsoidal shells, the next smaller radius requested: particles farther out, other objects, the size of the box,
the other radii requested, the selection, and the random draws do not matter. -/
theorem C154_local_shapes (katz : Katz) (radii' : List ℝ) (i i' : Nat) (x : ℝ) (hi : katz.radii[i]? = some x) (hi' : radii'[i']? = some x)
    (hshell : katz.shellBased = true → (i = 0 ∧ i' = 0) ∨ (i ≠ 0 ∧ i' ≠ 0 ∧ katz.radii[i - 1]? = radii'[i' - 1]?))
    (hin : within (weightedMean (particlesOf xyz masses obj.1)) (obj.2 * x) (particlesOf xyz' masses' obj'.1) =
      within (weightedMean (particlesOf xyz masses obj.1)) (obj.2 * x) (particlesOf xyz masses obj.1))
    (rows rows' : List (List ShapeEntry))
    (hrun : GetShapeCat c' sol choose limit o katz false sel (.ok rows))
    (hrun' : GetShapeCat c' sol choose' limit' o' (katz.withRadii radii') false sel' (.ok rows')) :
    entryAt rows' k' i' = entryAt rows k i ∧ (entryAt rows k i).isSome = true := by
  obtain ⟨ms, h1, h2⟩ := shape_of c hc xyz masses box objs minPtcs hmin hs o ho sel hsel k z hk obj hobj hroom choose hch limit c' sol katz false rows hrun
  obtain ⟨ms', h1', h2'⟩ := shape_of c hc xyz' masses' box' objs' minPtcs' hmin' hs' o' ho' sel' hsel' k' z' hk' obj' hobj' hroom' choose' hch' limit' c'
    sol (katz.withRadii radii') false rows' hrun'
  obtain ⟨-, -, -, -, -, -, -, -, hpos, hR, -⟩ := object_of c hc xyz masses box objs minPtcs hmin hs o ho sel hsel k z hk obj hobj hroom choose hch limit
  obtain ⟨-, -, -, -, -, -, -, -, hpos', hR', -⟩ := object_of c hc xyz' masses' box' objs' minPtcs' hmin' hs' o' ho' sel' hsel' k' z' hk' obj' hobj' hroom'
    choose' hch' limit'
  have hfp : 0 < c.inL / mpch c.h := div_pos hc.inL (mpch_pos hc.h)
  have hl := (List.getElem?_eq_some_iff.1 hi).1
  have hl' := (List.getElem?_eq_some_iff.1 hi').1
  have e := local_entry (katz.settings sol (box * (c.inL / mpch c.h))) _ hR (spread_scale _ _ hfp _ hsp) _ _ ms h1 i hl
  have e' := local_entry ((katz.withRadii radii').settings sol (box' * (c.inL / mpch c.h))) _ hR' (spread_scale _ _ hfp _ hsp') _ _ ms' h1' i' hl'
  have hsame : ms'[i']? = ms[i]? := by
    rw [e, e', hrad, hcen]
    split
    · rfl
    · have hsh : shellAt ((katz.withRadii radii').settings sol (box' * (c.inL / mpch c.h))) (obj.2 * (c.inL / mpch c.h)) i' =
          shellAt (katz.settings sol (box * (c.inL / mpch c.h))) (obj.2 * (c.inL / mpch c.h)) i := by
        unfold shellAt
        simp only [Katz.settings, Katz.withRadii, hi, hi', Option.getD_some]
        congr 1
        by_cases hb : katz.shellBased = true
        · rw [if_pos hb, if_pos hb]
          rcases hshell hb with ⟨rfl, rfl⟩ | ⟨n1, n2, n3⟩
          · rfl
          · rw [if_neg n1, if_neg n2, n3]
        · rw [if_neg hb, if_neg hb]
      rw [hsh]
      have hd : (shellAt (katz.settings sol (box * (c.inL / mpch c.h))) (obj.2 * (c.inL / mpch c.h)) i).1 = obj.2 * x * (c.inL / mpch c.h) := by
        unfold shellAt
        simp only [Katz.settings, hi, Option.getD_some]
        ring
      refine pureOne_inner (katz.settings sol (box * (c.inL / mpch c.h))) hsol _ _ ?_ ?_ _ _ _ _ _ ?_
      · intro p hp
        obtain ⟨q, hq, rfl⟩ := List.mem_map.1 hp
        exact (hpos q hq).le
      · intro p hp
        obtain ⟨q, hq, rfl⟩ := List.mem_map.1 hp
        exact (hpos' q hq).le
      · rw [hd]
        apply near_toPts
        rw [within_scale _ _ hfp, within_scale _ _ hfp, hin]
  have hsome : (ms[i]?).isSome = true := by
    have hlen : ms.length = katz.radii.length := Shapes.pureLocal_length h1
    rw [List.getElem?_eq_getElem (by omega)]
    rfl
  unfold entryAt
  rw [h2, h2']
  simp only [Option.bind_some, List.getElem?_map, hsame, Option.isSome_map, hsome, and_self]

/-- C154. Shapes of whole objects depend on the particles within the radius of the object plus 6 Mpc/h (`SAFE`). -/
theorem C154_global_shapes (katz : Katz)
    (hin : within (weightedMean (particlesOf xyz masses obj.1)) (obj.2 + 6 * mpch c.h / c.inL) (particlesOf xyz' masses' obj'.1) =
      within (weightedMean (particlesOf xyz masses obj.1)) (obj.2 + 6 * mpch c.h / c.inL) (particlesOf xyz masses obj.1))
    (rows rows' : List (List ShapeEntry))
    (hrun : GetShapeCat c' sol choose limit o katz true sel (.ok rows))
    (hrun' : GetShapeCat c' sol choose' limit' o' katz true sel' (.ok rows')) :
    entryAt rows' k' 0 = entryAt rows k 0 ∧ (entryAt rows k 0).isSome = true := by
  obtain ⟨ms, h1, h2⟩ := shape_of c hc xyz masses box objs minPtcs hmin hs o ho sel hsel k z hk obj hobj hroom choose hch limit c' sol katz true rows hrun
  obtain ⟨ms', h1', h2'⟩ := shape_of c hc xyz' masses' box' objs' minPtcs' hmin' hs' o' ho' sel' hsel' k' z' hk' obj' hobj' hroom' choose' hch' limit' c'
    sol katz true rows' hrun'
  obtain ⟨-, -, -, -, -, -, -, -, hpos, hR, -⟩ := object_of c hc xyz masses box objs minPtcs hmin hs o ho sel hsel k z hk obj hobj hroom choose hch limit
  obtain ⟨-, -, -, -, -, -, -, -, hpos', hR', -⟩ := object_of c hc xyz' masses' box' objs' minPtcs' hmin' hs' o' ho' sel' hsel' k' z' hk' obj' hobj' hroom'
    choose' hch' limit'
  have hfp : 0 < c.inL / mpch c.h := div_pos hc.inL (mpch_pos hc.h)
  have e := global_entry (katz.settings sol (box * (c.inL / mpch c.h))) _ hR (spread_scale _ _ hfp _ hsp) _ _ ms h1
  have e' := global_entry (katz.settings sol (box' * (c.inL / mpch c.h))) _ hR' (spread_scale _ _ hfp _ hsp') _ _ ms' h1'
  have hsame : ms'[0]? = ms[0]? := by
    rw [e, e', hrad, hcen]
    have hd : obj.2 * (c.inL / mpch c.h) + 6 = (obj.2 + 6 * mpch c.h / c.inL) * (c.inL / mpch c.h) := by
      have h1 := hc.inL.ne'
      have h2 := (mpch_pos hc.h).ne'
      field_simp
    refine pureOne_inner (katz.settings sol (box * (c.inL / mpch c.h))) hsol _ _ ?_ ?_ _ _ _ _ _ ?_
    · intro p hp
      obtain ⟨q, hq, rfl⟩ := List.mem_map.1 hp
      exact (hpos q hq).le
    · intro p hp
      obtain ⟨q, hq, rfl⟩ := List.mem_map.1 hp
      exact (hpos' q hq).le
    · apply near_toPts
      change within _ (obj.2 * (c.inL / mpch c.h) + 6) _ = within _ (obj.2 * (c.inL / mpch c.h) + 6) _
      rw [hd, within_scale _ _ hfp, within_scale _ _ hfp, hin]
  have hsome : (ms[0]?).isSome = true := by
    have hlen : ms.length = 1 := Shapes.pureGlobal_length h1
    rw [List.getElem?_eq_getElem (by omega)]
    rfl
  unfold entryAt
  rw [h2, h2']
  simp only [Option.bind_some, List.getElem?_map, hsame, Option.isSome_map, hsome, and_self]

end

/-- C154. Density profiles: the entry at the radius `radii[i]` depends on nothing but the radius and the centre of the object and its particles within
the next larger radius requested (for the last entry: within the last radius). -/
theorem C154_profiles (radii : List ℝ) (hsort : radii.Pairwise (· < ·)) (hpos : ∀ x ∈ radii, 1e-8 < x) (hr : 0 ≤ obj.2) (i : Nat) (hi : i < radii.length)
    (R : ℝ) (hR : radii[i + 1]? = some R ∨ (i + 1 = radii.length ∧ radii[i]? = some R))
    (hin : within (weightedMean (particlesOf xyz masses obj.1)) (obj.2 * R) (particlesOf xyz' masses' obj'.1) =
      within (weightedMean (particlesOf xyz masses obj.1)) (obj.2 * R) (particlesOf xyz masses obj.1))
    (rows rows' : List (List ℝ))
    (hrun : EstDensProfs c' choose limit o radii sel (.ok rows))
    (hrun' : EstDensProfs c' choose' limit' o' radii sel' (.ok rows')) :
    entryAt rows' k' i = entryAt rows k i ∧ (entryAt rows k i).isSome = true := by
  obtain ⟨edges, hedges, hel, hgood, hlast, hbr⟩ := C30_edges radii hsort hpos (by intro h; rw [h] at hi; simp at hi)
  obtain ⟨row, h1, h2⟩ := profile_of c hc xyz masses box objs minPtcs hmin hs o ho sel hsel k z hk obj hobj hroom choose hch limit c' radii edges hedges
    rows hrun
  obtain ⟨row', h1', h2'⟩ := profile_of c hc xyz' masses' box' objs' minPtcs' hmin' hs' o' ho' sel' hsel' k' z' hk' obj' hobj' hroom' choose' hch' limit' c'
    radii edges hedges rows' hrun'
  obtain ⟨-, -, -, -, -, -, -, -, -, hRm, -⟩ := object_of c hc xyz masses box objs minPtcs hmin hs o ho sel hsel k z hk obj hobj hroom choose hch limit
  obtain ⟨-, -, -, -, -, -, -, -, -, hRm', -⟩ := object_of c hc xyz' masses' box' objs' minPtcs' hmin' hs' o' ho' sel' hsel' k' z' hk' obj' hobj' hroom'
    choose' hch' limit'
  have hfp : 0 < c.inL / mpch c.h := div_pos hc.inL (mpch_pos hc.h)
  obtain ⟨lo, hlo⟩ : ∃ lo, edges[i]? = some lo := ⟨_, List.getElem?_eq_getElem (by omega)⟩
  obtain ⟨hi', hhi⟩ : ∃ hi', edges[i + 1]? = some hi' := ⟨_, List.getElem?_eq_getElem (by omega)⟩
  have hle : hi' ≤ R := by
    have hlastle : ∀ x, radii.getLast? = some x → hi' ≤ x := by
      intro x hx
      rw [← hlast, List.getLast?_eq_getElem?] at hx
      rcases Nat.lt_or_ge (i + 1) (edges.length - 1) with hlt | hge
      · obtain ⟨a1, a2⟩ := List.getElem?_eq_some_iff.1 hhi
        obtain ⟨b1, b2⟩ := List.getElem?_eq_some_iff.1 hx
        rw [← a2, ← b2]
        exact (List.pairwise_iff_getElem.1 hgood.2 _ _ a1 b1 hlt).le
      · have : i + 1 = edges.length - 1 := by omega
        rw [this, hx] at hhi
        exact (Option.some.inj hhi).ge
    rcases hR with h | ⟨h, h'⟩
    · by_cases hl : i + 1 + 1 < radii.length
      · obtain ⟨a, b, ha, -, hab, -⟩ := hbr (i + 1) R h hl
        rw [hhi] at ha
        exact (Option.some.inj ha).le.trans hab.le
      · apply hlastle
        have := (List.getElem?_eq_some_iff.1 h).1
        rw [List.getLast?_eq_getElem?, ← h]
        congr 1
        omega
    · apply hlastle
      rw [List.getLast?_eq_getElem?, ← h']
      congr 1
      omega
  have hhi0 : 0 ≤ hi' := hgood.1 _ (List.mem_of_getElem? hhi)
  have hget : (edges.zip edges.tail)[i]? = some (lo, hi') := by
    rw [List.getElem?_zip_eq_some]
    refine ⟨hlo, ?_⟩
    rw [List.getElem?_tail]
    exact hhi
  have key : ∀ (L : ℝ) (ps : List (Particle ℝ)) (v : Vec ℝ) (r : ℝ), RoomFor L ps →
      (aloneProfile L edges ⟨ps, v, r⟩)[i]? = some (((ps.filter (qSph v r lo hi')).map fun p => p.mass /
        (4 / 3 * Real.pi * ((hi' * r) ^ 3 - (lo * r) ^ 3))).sum) := by
    intro L ps v r hroom
    unfold aloneProfile
    simp only
    rw [cy_room L ps hroom, densProfSph_eq _ _ _ _ _ (by simp), List.getElem?_map, hget]
    rfl
  have hfil : ∀ (v : Vec ℝ) (r : ℝ) (ps : List (Particle ℝ)), 0 ≤ r →
      ps.filter (qSph v r lo hi') = (within v (r * R) ps).filter (qSph v r lo hi') := by
    intro v r ps hr
    unfold within
    rw [List.filter_filter]
    apply List.filter_congr
    intro p _
    unfold qSph
    rw [← Bool.decide_and, decide_eq_decide]
    refine ⟨fun h => ⟨h, ?_⟩, fun h => h.1⟩
    have h2 : (hi' * r) ^ 2 ≤ (r * R) ^ 2 := by
      apply pow_le_pow_left₀ (mul_nonneg hhi0 hr)
      rw [mul_comm]
      exact mul_le_mul_of_nonneg_left hle hr
    have := h.1
    unfold dist2 at this
    linarith
  have e := key _ _ (fun a => weightedMean (particlesOf xyz masses obj.1) a * (c.inL / mpch c.h)) (obj.2 * (c.inL / mpch c.h)) hRm
  have e' := key _ _ (fun a => weightedMean (particlesOf xyz masses obj.1) a * (c.inL / mpch c.h)) (obj.2 * (c.inL / mpch c.h)) hRm'
  have hrf : 0 ≤ obj.2 * (c.inL / mpch c.h) := mul_nonneg hr hfp.le
  have hcomm : obj.2 * (c.inL / mpch c.h) * R = obj.2 * R * (c.inL / mpch c.h) := by ring
  rw [hfil _ _ _ hrf, hcomm, within_scale _ _ hfp] at e e'
  rw [hin] at e'
  rw [hrad, hcen] at h1'
  simp only [estOut, internalLM_eq, Except.ok.injEq] at h1 h1'
  unfold entryAt
  rw [h2, h2', ← h1, ← h1']
  simp only [Option.bind_some, List.getElem?_map, e, e', Option.map_some, Option.isSome_some, and_self]

end

/-! ## Whole calls -/

/-- Two objects which cross no face of their boxes, are not single points, and have the same radius, the same centre of mass and the same particles within the
distances `reach` from it. -/
structure SameWithin (box box' : ℝ) (ps ps' : List (Particle ℝ)) (r r' : ℝ) (reach : List ℝ) : Prop where
  room : RoomFor box ps
  room' : RoomFor box' ps'
  spread : Spread ps
  spread' : Spread ps'
  radius : r' = r
  centre : weightedMean ps' = weightedMean ps
  inside : ∀ R ∈ reach, within (weightedMean ps) R ps' = within (weightedMean ps) R ps

theorem aloneShapes_within (katz : Katz) (sol : Solver) (hsol : GoodSolver sol) (whole : Bool) (L L' : ℝ) (ps ps' : List (Particle ℝ)) (v : Vec ℝ) (r : ℝ)
    (hR : RoomFor L ps) (hR' : RoomFor L' ps') (hsp : Spread ps) (hsp' : Spread ps') (hm : ∀ p ∈ ps, 0 < p.mass) (hm' : ∀ p ∈ ps', 0 < p.mass)
    (hin : ∀ R ∈ (if whole then [r + 6] else katz.radii.map (r * ·)), within v R ps' = within v R ps) :
    aloneShapes (katz.settings sol L') (kindOf whole) ⟨ps'.map fun p => ⟨p.pos, 0, p.mass⟩, v, r⟩ =
      aloneShapes (katz.settings sol L) (kindOf whole) ⟨ps.map fun p => ⟨p.pos, 0, p.mass⟩, v, r⟩ := by
  have hP := positionPts_room (katz.settings sol L) ps v r hR
  have hP' := positionPts_room (katz.settings sol L') ps' v r hR'
  change positionPts _ _ = toPts ps at hP
  change positionPts _ _ = toPts ps' at hP'
  have hone : ∀ (d : ℝ) (δ : Option ℝ) (m : Morph), within v d ps' = within v d ps →
      pureOne ((katz.settings sol L').config (toPts ps') v v d δ) m = pureOne ((katz.settings sol L).config (toPts ps) v v d δ) m := by
    intro d δ m h
    refine pureOne_inner (katz.settings sol L) hsol _ _ ?_ ?_ _ _ _ _ _ (near_toPts _ _ _ _ h)
    · intro p hp
      obtain ⟨q, hq, rfl⟩ := List.mem_map.1 hp
      exact (hm q hq).le
    · intro p hp
      obtain ⟨q, hq, rfl⟩ := List.mem_map.1 hp
      exact (hm' q hq).le
  unfold kindOf
  cases whole with
  | true =>
    simp only [if_true] at hin ⊢
    unfold aloneShapes
    simp only
    rw [hP, hP']
    unfold pureGlobal pureLoop
    rw [if_neg (spread_local hsp), if_neg (spread_local hsp')]
    have := hone (r + 6) none { Morph.zero with d := r + 6 } (hin _ (by simp))
    apply mapM_eq_of_map
    rw [List.map_replicate, List.map_replicate]
    exact congrArg _ this
  | false =>
    simp only [Bool.false_eq_true, if_false] at hin ⊢
    unfold aloneShapes
    simp only
    rw [hP, hP']
    unfold pureLocal pureLoop
    rw [if_neg (spread_local hsp), if_neg (spread_local hsp')]
    split
    · rfl
    · apply mapM_eq_of_map
      rw [List.map_map, List.map_map]
      apply List.map_congr_left
      intro i hi
      have hi : i < katz.radii.length := List.mem_range.1 hi
      apply hone
      apply hin
      show r * (katz.radii[i]?.getD 0) ∈ _
      rw [List.getElem?_eq_getElem hi, Option.getD_some]
      exact List.mem_map_of_mem (List.getElem_mem hi)

/-- C154. If this holds for all selected objects and all radii, both calls have the same outcome (also if they raise an exception). -/
theorem C154_outcome (c : Cfg ℝ) (hc : c.Pos) (xyz xyz' : List (Vec ℝ)) (masses masses' : List ℝ) (box box' : ℝ) (objs objs' : List (List Nat × ℝ))
    (minPtcs minPtcs' : Int) (hmin : 1 ≤ minPtcs) (hmin' : 1 ≤ minPtcs')
    (hs : PointCloud xyz masses objs) (hs' : PointCloud xyz' masses' objs') (o o' : Obj)
    (ho : construct c ⟨xyz, masses, .nested (objs.map Prod.fst), .array (objs.map Prod.snd), box, minPtcs, .com⟩ = .ok o)
    (ho' : construct c ⟨xyz', masses', .nested (objs'.map Prod.fst), .array (objs'.map Prod.snd), box', minPtcs', .com⟩ = .ok o')
    (sel sel' : List Int) (hsel : GoodSelection sel (resolved minPtcs objs).length)
    (hsel' : GoodSelection sel' (resolved minPtcs' objs').length) (hlen : sel'.length = sel.length)
    (choose choose' : Nat → List Nat) (hch : ∀ n, 0 < n → ∃ j ∈ choose n, j < n)
    (hch' : ∀ n, 0 < n → ∃ j ∈ choose' n, j < n) (limit limit' : Nat) (c' : Cfg ℝ) (sol : Solver) (hsol : GoodSolver sol) (katz : Katz) (whole : Bool)
    (hsame : ∀ (k : Nat) (z z' : Int) (obj obj' : List Nat × ℝ), sel[k]? = some z → sel'[k]? = some z' → (resolved minPtcs objs)[z.toNat]? = some obj →
      (resolved minPtcs' objs')[z'.toNat]? = some obj' →
      SameWithin box box' (particlesOf xyz masses obj.1) (particlesOf xyz' masses' obj'.1) obj.2 obj'.2
        (if whole then [obj.2 + 6 * mpch c.h / c.inL] else katz.radii.map (obj.2 * ·)))
    (out out' : Except ShapeErr (List (List ShapeEntry)))
    (hrun : GetShapeCat c' sol choose limit o katz whole sel out)
    (hrun' : GetShapeCat c' sol choose' limit' o' katz whole sel' out') : out' = out := by
  obtain ⟨hb, hcn, parts, r200, h1, h2, h3, h4, h5⟩ := prepared_of c xyz masses box objs minPtcs hmin .com hs.lengths hs.objects hs.exist o ho sel hsel
  obtain ⟨hb', hcn', parts', r200', h1', h2', h3', h4', h5'⟩ := prepared_of c xyz' masses' box' objs' minPtcs' hmin' .com hs'.lengths hs'.objects hs'.exist
    o' ho' sel' hsel'
  have hfp : 0 < c.inL / mpch c.h := div_pos hc.inL (mpch_pos hc.h)
  rw [getShapeCat_fn c' sol choose limit o katz whole sel parts h1 r200 h2 h3 out hrun,
    getShapeCat_fn c' sol choose' limit' o' katz whole sel' parts' h1' r200' h2' h3' out' hrun', hcn, hcn', hb, hb']
  unfold shapesOf
  rw [mapM_eq_of_map]
  apply List.ext_getElem?
  intro k
  rw [List.getElem?_map, List.getElem?_map]
  by_cases hk : k < sel.length
  · have hz := hsel.2.2 sel[k] (List.getElem_mem hk)
    have hk' : k < sel'.length := by omega
    have hz' := hsel'.2.2 sel'[k] (List.getElem_mem hk')
    have hlt : (sel[k]).toNat < (resolved minPtcs objs).length := by omega
    have hlt' : (sel'[k]).toNat < (resolved minPtcs' objs').length := by omega
    have g1 := List.getElem?_eq_getElem hk
    have g1' := List.getElem?_eq_getElem hk'
    have g2 := List.getElem?_eq_getElem hlt
    have g2' := List.getElem?_eq_getElem hlt'
    have S := hsame k _ _ _ _ g1 g1' g2 g2'
    obtain ⟨-, -, -, -, -, -, -, e1, hpos, hR, -, hcen⟩ := object_of c hc xyz masses box objs minPtcs hmin hs o ho sel hsel k _ g1 _ g2 S.room choose hch limit
    obtain ⟨-, -, -, -, -, -, -, e1', hpos', hR', -, hcen'⟩ := object_of c hc xyz' masses' box' objs' minPtcs' hmin' hs' o' ho' sel' hsel' k _ g1' _ g2'
      S.room' choose' hch' limit'
    rw [h5 k _ _ g1 g2, h5' k _ _ g1' g2', Option.map_some, Option.map_some]
    simp only
    rw [hcen, hcen', Option.map_some, Option.map_some, S.radius, S.centre]
    congr 2
    refine aloneShapes_within katz sol hsol whole _ _ _ _ _ _ hR hR' (spread_scale _ _ hfp _ S.spread) (spread_scale _ _ hfp _ S.spread') hpos hpos' ?_
    intro R hRm
    obtain ⟨R₀, hR₀, rfl⟩ : ∃ R₀ ∈ (if whole = true then [(resolved minPtcs objs)[(sel[k]).toNat].2 + 6 * mpch c.h / c.inL] else
        katz.radii.map ((resolved minPtcs objs)[(sel[k]).toNat].2 * ·)), R₀ * (c.inL / mpch c.h) = R := by
      cases whole with
      | true =>
        simp only [if_true, List.mem_singleton] at hRm ⊢
        refine ⟨_, rfl, ?_⟩
        rw [hRm]
        have h1 := hc.inL.ne'
        have h2 := (mpch_pos hc.h).ne'
        field_simp
      | false =>
        simp only [Bool.false_eq_true, if_false, List.mem_map] at hRm ⊢
        obtain ⟨x, hx, rfl⟩ := hRm
        exact ⟨_, ⟨x, hx, rfl⟩, by ring⟩
    rw [within_scale _ _ hfp, within_scale _ _ hfp, S.inside _ hR₀]
  · rw [List.getElem?_eq_none (by simp only [List.length_zip]; omega), List.getElem?_eq_none (by simp only [List.length_zip]; omega)]
    rfl

/-! ## Concrete cases -/

/-- The cross of `C106_cross` with two more particles at the distance 150. -/
noncomputable def farXyz : List (Vec ℝ) := crossXyz ++ [![155, 5, 5], ![-145, 5, 5]]

theorem far_particles : particlesOf farXyz [1, 1, 1, 1, 1, 1, 7, 7] [0, 1, 2, 3, 4, 5, 6, 7] =
    particlesOf crossXyz [1, 1, 1, 1, 1, 1] [0, 1, 2, 3, 4, 5] ++ [⟨![155, 5, 5], 7⟩, ⟨![-145, 5, 5], 7⟩] := rfl

theorem cross_particles : particlesOf crossXyz [1, 1, 1, 1, 1, 1] [0, 1, 2, 3, 4, 5] = [⟨![8, 5, 5], 1⟩, ⟨![2, 5, 5], 1⟩, ⟨![5, 7, 5], 1⟩, ⟨![5, 3, 5], 1⟩,
    ⟨![5, 5, 6], 1⟩, ⟨![5, 5, 4], 1⟩] := rfl

theorem cross_mean : weightedMean (particlesOf crossXyz [1, 1, 1, 1, 1, 1] [0, 1, 2, 3, 4, 5]) = ![5, 5, 5] := by
  rw [cross_particles]
  funext a
  fin_cases a <;> simp [weightedMean, totalMass] <;> norm_num

theorem far_mean : weightedMean (particlesOf farXyz [1, 1, 1, 1, 1, 1, 7, 7] [0, 1, 2, 3, 4, 5, 6, 7]) = ![5, 5, 5] := by
  rw [far_particles, cross_particles]
  funext a
  fin_cases a <;> simp [weightedMean, totalMass] <;> norm_num

theorem far_same : SameWithin 20 1000 (particlesOf crossXyz [1, 1, 1, 1, 1, 1] [0, 1, 2, 3, 4, 5])
    (particlesOf farXyz [1, 1, 1, 1, 1, 1, 7, 7] [0, 1, 2, 3, 4, 5, 6, 7]) 100 100 [100 * 1] := by
  refine ⟨cross_room, ?_, ?_, ?_, rfl, far_mean.trans cross_mean.symm, ?_⟩
  · refine .inr ⟨by norm_num, ?_⟩
    have hb : ∀ p ∈ particlesOf farXyz [1, 1, 1, 1, 1, 1, 7, 7] [0, 1, 2, 3, 4, 5, 6, 7], ∀ a, -145 ≤ p.pos a ∧ p.pos a ≤ 155 := by
      intro p hp a
      have := (mem_particlesOf hp).1
      simp only [farXyz, crossXyz, List.cons_append, List.nil_append, List.mem_cons, List.not_mem_nil, or_false] at this
      rcases this with h | h | h | h | h | h | h | h <;> rw [h] <;> fin_cases a <;> norm_num
    intro p hp q hq a
    have h1 := hb p hp a
    have h2 := hb q hq a
    rw [abs_le]
    constructor <;> linarith
  · refine ⟨⟨![8, 5, 5], 1⟩, ?_, ⟨![2, 5, 5], 1⟩, ?_, ?_⟩
    · rw [cross_particles]; simp
    · rw [cross_particles]; simp
    · intro h
      have := congrFun h 0
      norm_num at this
  · refine ⟨⟨![8, 5, 5], 1⟩, ?_, ⟨![2, 5, 5], 1⟩, ?_, ?_⟩
    · rw [far_particles, cross_particles]; simp
    · rw [far_particles, cross_particles]; simp
    · intro h
      have := congrFun h 0
      norm_num at this
  · intro R hR
    rw [List.mem_singleton.1 hR, cross_mean, far_particles]
    unfold within
    rw [List.filter_append]
    have : ([⟨![155, 5, 5], 7⟩, ⟨![-145, 5, 5], 7⟩] : List (Particle ℝ)).filter (fun p => decide (((![5, 5, 5] : Vec ℝ) 0 - p.pos 0) ^ 2 +
        ((![5, 5, 5] : Vec ℝ) 1 - p.pos 1) ^ 2 + ((![5, 5, 5] : Vec ℝ) 2 - p.pos 2) ^ 2 < ((100 : ℝ) * 1) ^ 2)) = [] := by
      rw [List.filter_eq_nil_iff]
      intro p hp
      simp only [List.mem_cons, List.not_mem_nil, or_false] at hp
      rcases hp with rfl | rfl <;> norm_num [Matrix.cons_val_two] <;> nlinarith [sq_nonneg ((![5, 5, 5] : Vec ℝ) 2 - (![155, 5, 5] : Vec ℝ) 2), sq_nonneg ((![5, 5, 5] : Vec ℝ) 2 - (![-145, 5, 5] : Vec ℝ) 2)]
    rw [this, List.append_nil]

theorem far_cloud : PointCloud farXyz [1, 1, 1, 1, 1, 1, 7, 7] [([0, 1, 2, 3, 4, 5, 6, 7], 100)] := by
  refine ⟨rfl, ?_, by simp, ?_⟩
  · intro m hm
    simp only [List.mem_cons, List.not_mem_nil, or_false] at hm
    rcases hm with rfl | rfl | rfl | rfl | rfl | rfl | rfl | rfl <;> norm_num
  · intro o ho i hi
    simp only [List.mem_singleton] at ho
    subst ho
    simp only [List.mem_cons, List.not_mem_nil, or_false] at hi
    simp only [farXyz, crossXyz, List.length_append, List.length_cons, List.length_nil]
    omega

/-- A concrete case of C154: the cross with two heavy particles far outside has at the radius 100 the shape of the cross. -/
theorem C154_cross (h : ℝ) (hh : 0 < h) (sol : Solver) (hsol : GoodSolver sol)
    (choose : Nat → List Nat) (hch : ∀ n, 0 < n → ∃ j ∈ choose n, j < n) (limit : Nat) (o' : Obj)
    (ho' : construct ⟨mpch h, msunh10 h, 1, h, mpch h, msunh10 h, 1⟩ ⟨farXyz, [1, 1, 1, 1, 1, 1, 7, 7],
      .nested [[0, 1, 2, 3, 4, 5, 6, 7]], .array [100], 1000, 6, .com⟩ = .ok o')
    (out' : Except ShapeErr (List (List ShapeEntry)))
    (hrun' : GetShapeCat ⟨mpch h, msunh10 h, 1, h, mpch h, msunh10 h, 1⟩ sol choose limit o' ⟨[1], 1 / 10, 100, 6, false, false⟩ false [0] out') :
    ∃ e : ShapeEntry, out' = .ok [[e]] ∧ e.conv = true ∧ e.d = some 100 ∧ e.q = some (2 / 3) ∧ e.s = some (1 / 3) := by
  have hl := mpch_pos hh
  have hms := msunh10_pos hh
  have hc : Cfg.Pos (⟨mpch h, msunh10 h, 1, h, mpch h, msunh10 h, 1⟩ : Cfg ℝ) := by
    constructor <;> first | exact hl | exact hms | exact hh | exact one_pos
  have hs := cross_sensible
  have hpc : PointCloud crossXyz [1, 1, 1, 1, 1, 1] [([0, 1, 2, 3, 4, 5], 100)] := ⟨hs.lengths, hs.masses_pos, hs.objects, hs.exist⟩
  have hres : resolved 6 [([0, 1, 2, 3, 4, 5], (100 : ℝ))] = [([0, 1, 2, 3, 4, 5], 100)] := by simp [resolved]
  have hres' : resolved 6 [([0, 1, 2, 3, 4, 5, 6, 7], (100 : ℝ))] = [([0, 1, 2, 3, 4, 5, 6, 7], 100)] := by simp [resolved]
  have hsel : GoodSelection [0] (resolved 6 [([0, 1, 2, 3, 4, 5], (100 : ℝ))]).length := by
    rw [hres]; exact ⟨by simp, by simp, by simp⟩
  have hsel' : GoodSelection [0] (resolved 6 [([0, 1, 2, 3, 4, 5, 6, 7], (100 : ℝ))]).length := by
    rw [hres']; exact ⟨by simp, by simp, by simp⟩
  obtain ⟨o, ho⟩ : ∃ o, construct (⟨mpch h, msunh10 h, 1, h, mpch h, msunh10 h, 1⟩ : Cfg ℝ) ⟨crossXyz, [1, 1, 1, 1, 1, 1],
      .nested ([([0, 1, 2, 3, 4, 5], (100 : ℝ))].map Prod.fst), .array ([([0, 1, 2, 3, 4, 5], (100 : ℝ))].map Prod.snd), 20, 6, .com⟩ = .ok o :=
    ⟨_, construct_eq _ crossXyz _ _ _ _ _ hs.lengths hs.objects⟩
  obtain ⟨out, hrun⟩ := C106_outcome_exists _ ⟨mpch h, msunh10 h, 1, h, mpch h, msunh10 h, 1⟩ crossXyz [1, 1, 1, 1, 1, 1] 20
    [([0, 1, 2, 3, 4, 5], 100)] 6 (by norm_num) .com hs sol choose limit o ho ⟨[1], 1 / 10, 100, 6, false, false⟩ false [0] hsel
  obtain ⟨e, he, h1, h2, h3, h4, -⟩ := C106_cross 20 le_rfl h hh sol hsol choose hch limit o ho out hrun
  refine ⟨e, ?_, h1, h2, h3, h4⟩
  rw [← he]
  refine C154_outcome _ hc crossXyz farXyz _ _ 20 1000 [([0, 1, 2, 3, 4, 5], 100)] [([0, 1, 2, 3, 4, 5, 6, 7], 100)] 6 6 (by norm_num) (by norm_num) hpc
    far_cloud o o' ho ho' [0] [0] hsel hsel' rfl choose choose hch hch limit limit _ sol hsol _ false ?_ out out' hrun hrun'
  intro k z z' obj obj' hk hk' hobj hobj'
  have hk0 : k = 0 := by
    by_contra hne
    rw [List.getElem?_eq_none (by simp; omega)] at hk
    cases hk
  subst hk0
  obtain rfl : z = 0 := by simpa using hk.symm
  obtain rfl : z' = 0 := by simpa using hk'.symm
  rw [hres] at hobj
  rw [hres'] at hobj'
  obtain rfl : obj = ([0, 1, 2, 3, 4, 5], 100) := by simpa using hobj.symm
  obtain rfl : obj' = ([0, 1, 2, 3, 4, 5, 6, 7], 100) := by simpa using hobj'.symm
  exact far_same

end Verif.Api
