import Verif.Api.Locality

/-!
# Point clouds without periodicity (C150)

`L_BOX = 0` stands for "not periodic" (docs/source/data_structures/index.rst).  The results are those of the same particles anywhere else in space
and in any periodic box with enough room.
-/

set_option linter.unusedSectionVars false

namespace Verif.Api

open Verif.Units Verif.Catalogue Verif.Periodic Verif.Binning
open Verif.Shapes (Solver aloneShapes positionPts Pt pureLocal pureGlobal pureLoop)

/-! ## Specification -/

/-- A point cloud with its objects: as many masses as positions, positive masses, objects consisting of existing particles.  Positions are
arbitrary. -/
structure PointCloud (xyz : List (Vec ℝ)) (masses : List ℝ) (objs : List (List Nat × ℝ)) : Prop where
  lengths : xyz.length = masses.length
  masses_pos : ∀ m ∈ masses, 0 < m
  objects : objs ≠ []
  exist : ∀ o ∈ objs, ∀ i ∈ o.1, i < xyz.length

/-- Either there is no periodicity (`L_BOX = 0`), or the box contains all particles, and no selected object extends over more than half of it. -/
def Room (box : ℝ) (xyz : List (Vec ℝ)) (masses : List ℝ) (objs : List (List Nat × ℝ)) (minPtcs : Int) (sel : List Int) : Prop :=
  box = 0 ∨ 0 < box ∧ (∀ x ∈ xyz, ∀ a, 0 ≤ x a ∧ x a < box) ∧
    ∀ z ∈ sel, ∀ obj, (resolved minPtcs objs)[z.toNat]? = some obj → NotCrossing box (particlesOf xyz masses obj.1)

/-- All positions moved by `t`. -/
noncomputable def shifted (t : Vec ℝ) (xyz : List (Vec ℝ)) : List (Vec ℝ) := xyz.map (· + t)

/-! ## One object -/

/-- The same as `Room` for one object. -/
def RoomFor (L : ℝ) (ps : List (Particle ℝ)) : Prop := L = 0 ∨ 0 < L ∧ NotCrossing L ps

theorem zipWith_self {β : Type} (f : Vec ℝ → Particle ℝ → β) (ps : List (Particle ℝ)) :
    List.zipWith f (ps.map fun p => p.pos) ps = ps.map fun p => f p.pos p := by
  induction ps with
  | nil => rfl
  | cons p ps ih => simp [ih]

theorem unwrapped_room (choose : Nat → List Nat) (L : ℝ) (ps : List (Particle ℝ)) (hch : ∃ j ∈ choose ps.length, j < ps.length)
    (h : RoomFor L ps) : unwrapped choose L ps = ps := by
  rcases h with rfl | ⟨hL, h⟩
  · unfold unwrapped respectPBCNoRef
    rw [if_neg (by simp), zipWith_self]
    simp
  · exact unwrapped_of_notCrossing choose L hL ps hch h

theorem cy_room (L : ℝ) (ps : List (Particle ℝ)) (h : RoomFor L ps) :
    List.zipWith Particle.mk (cyRespectPBCNoRef (ps.map fun p => p.pos) L) (ps.map fun p => p.mass) = ps := by
  rcases h with rfl | ⟨hL, h⟩
  · unfold cyRespectPBCNoRef
    rw [if_pos rfl, List.zipWith_map_right, zipWith_self]
    simp
  · exact cy_of_notCrossing L hL ps h

theorem positionPts_room (st : Shapes.Settings) (ps : List (Particle ℝ)) (v : Vec ℝ) (r : ℝ) (h : RoomFor st.box ps) :
    positionPts st ⟨ps.map fun p => ⟨p.pos, 0, p.mass⟩, v, r⟩ = ps.map fun p => (⟨p.pos, p.pos, p.mass⟩ : Pt) := by
  rcases h with h0 | ⟨hL, h⟩
  · unfold positionPts Shapes.unwrapped cyRespectPBCNoRef
    rw [if_pos h0, List.map_map, List.zipWith_map_right]
    exact zipWith_self (fun x p => (⟨x, x, p.mass⟩ : Pt)) ps
  · exact positionPts_of_notCrossing st hL ps v r h

/-- A box which is big enough for the object, wherever it is. -/
theorem exists_bound (ps : List (Vec ℝ)) : ∃ B : ℝ, 0 < B ∧ ∀ p ∈ ps, ∀ a, |p a| < B := by
  induction ps with
  | nil => exact ⟨1, one_pos, by simp⟩
  | cons p ps ih =>
    obtain ⟨B, hB, h⟩ := ih
    refine ⟨B + (|p 0| + |p 1| + |p 2|), by positivity, ?_⟩
    intro q hq a
    have h0 := abs_nonneg (p 0)
    have h1 := abs_nonneg (p 1)
    have h2 := abs_nonneg (p 2)
    rcases List.mem_cons.1 hq with rfl | hq
    · fin_cases a <;> simp only [Fin.zero_eta, Fin.mk_one, Fin.reduceFinMk] <;> linarith
    · linarith [h q hq a]

/-- The object `ps'` in the box `L'` gives the same results as `ps` in the box `L`, moved by `t`. -/
structure SameResults (choose : Nat → List Nat) (limit : Nat) (center : Center) (L L' : ℝ) (t : Vec ℝ)
    (pr pr' : List (Particle ℝ) × ℝ) : Prop where
  r200 : pr'.2 = pr.2
  centre : centreOf choose limit L' center pr'.1 = (centreOf choose limit L center pr.1).map (· + t)
  shapeCentre : shapeCentre choose limit L' center pr'.1 = (shapeCentre choose limit L center pr.1).map (· + t)
  profile : ∀ edges v, aloneProfile L' edges ⟨pr'.1, v + t, pr'.2⟩ = aloneProfile L edges ⟨pr.1, v, pr.2⟩
  distances : ∀ v, massDistances L' (v + t) pr'.1 = massDistances L v pr.1
  shapes : ∀ (katz : Katz) sol whole v, aloneShapes (katz.settings sol L') (kindOf whole) ⟨pr'.1.map fun p => ⟨p.pos, 0, p.mass⟩, v + t, pr'.2⟩ =
    aloneShapes (katz.settings sol L) (kindOf whole) ⟨pr.1.map fun p => ⟨p.pos, 0, p.mass⟩, v, pr.2⟩
  mass : totalMass pr'.1 = totalMass pr.1

section
variable {choose : Nat → List Nat} {limit : Nat} {center : Center}

theorem SameResults.trans {L L' L'' : ℝ} {t t' : Vec ℝ} {pr pr' pr'' : List (Particle ℝ) × ℝ}
    (h : SameResults choose limit center L L' t pr pr') (h' : SameResults choose limit center L' L'' t' pr' pr'') :
    SameResults choose limit center L L'' (t + t') pr pr'' := by
  refine ⟨h'.r200.trans h.r200, ?_, ?_, ?_, ?_, ?_, h'.mass.trans h.mass⟩
  · rw [h'.centre, h.centre]; simp [Function.comp_def, add_assoc]
  · rw [h'.shapeCentre, h.shapeCentre]; simp [Function.comp_def, add_assoc]
  · intro edges v; rw [← add_assoc, h'.profile, h.profile]
  · intro v; rw [← add_assoc, h'.distances, h.distances]
  · intro katz sol whole v; rw [← add_assoc, h'.shapes, h.shapes]

variable (hch : ∀ n, 0 < n → ∃ j ∈ choose n, j < n)
include hch

/-- Two boxes with enough room. -/
theorem same_boxes (L L' : ℝ) (ps : List (Particle ℝ)) (r : ℝ) (hne : ps ≠ []) (h : RoomFor L ps) (h' : RoomFor L' ps) :
    SameResults choose limit center L L' 0 (ps, r) (ps, r) := by
  have hc := hch ps.length (List.length_pos_iff.2 hne)
  have e : ∀ L, RoomFor L ps → List.zipWith (fun x p => (⟨x, p.mass⟩ : Particle ℝ))
      (respectPBCNoRef (choose ps.length) (ps.map fun p => p.pos) L) ps = ps := fun L h => unwrapped_room choose L ps hc h
  refine ⟨rfl, ?_, ?_, ?_, ?_, ?_, rfl⟩
  · simp only [add_zero, Option.map_id']
    unfold centreOf
    dsimp only
    rw [e L h, e L' h']
  · simp only [add_zero, Option.map_id']
    unfold Api.shapeCentre
    dsimp only
    rw [e L h, e L' h']
  · intro edges v
    rw [add_zero]
    unfold aloneProfile
    simp only
    rw [cy_room L ps h, cy_room L' ps h']
  · intro v
    rw [add_zero]
    unfold massDistances
    rw [cy_room L ps h, cy_room L' ps h']
  · intro katz sol whole v
    rw [add_zero]
    have h1 := positionPts_room (katz.settings sol L) ps v r h
    have h2 := positionPts_room (katz.settings sol L') ps v r h'
    unfold kindOf
    cases whole with
    | true =>
      simp only [if_true]
      unfold aloneShapes
      simp only
      rw [h1, h2]
      rfl
    | false =>
      simp only [Bool.false_eq_true, if_false]
      unfold aloneShapes
      simp only
      rw [h1, h2]
      rfl

theorem same_moved (L : ℝ) (hL : 0 < L) (t : Vec ℝ) (ps : List (Particle ℝ)) (r : ℝ) (hne : ps ≠ []) (hm : ∀ p ∈ ps, 0 < p.mass)
    (h : NotCrossing L ps) : SameResults choose limit center L L t (ps, r) (translate t ps, r) :=
  ⟨rfl, centreOf_translate choose hch limit L hL center t ps hne hm h, shapeCentre_translate choose hch limit L hL center t ps hne hm h,
    fun edges v => aloneProfile_translate L hL edges t ps h v r, fun v => massDistances_translate L hL t ps h v,
    fun katz sol whole v => aloneShapes_translate (katz.settings sol L) hL whole t ps h v r,
    by simp [totalMass, translate, Function.comp_def]⟩

/-- Another box and another place. -/
theorem same_results (L L' : ℝ) (t : Vec ℝ) (ps : List (Particle ℝ)) (r : ℝ) (hne : ps ≠ []) (hm : ∀ p ∈ ps, 0 < p.mass)
    (h : RoomFor L ps) (h' : RoomFor L' (translate t ps)) :
    SameResults choose limit center L L' t (ps, r) (translate t ps, r) := by
  obtain ⟨B, hB, hb⟩ := exists_bound (ps.map fun p => p.pos)
  have hnc : NotCrossing (4 * B) ps := by
    intro p hp q hq a
    have h1 := abs_lt.1 (hb _ (List.mem_map_of_mem hp) a)
    have h2 := abs_lt.1 (hb _ (List.mem_map_of_mem hq) a)
    rw [abs_le]
    constructor <;> linarith [h1.1, h1.2, h2.1, h2.2]
  have h4 : 0 < 4 * B := by linarith
  have hne' : translate t ps ≠ [] := by simpa [translate] using hne
  have := ((same_boxes (limit := limit) (center := center) hch L (4 * B) ps r hne h (.inr ⟨h4, hnc⟩)).trans
    (same_moved hch (4 * B) h4 t ps r hne hm hnc)).trans
    (same_boxes hch (4 * B) L' (translate t ps) r hne' (.inr ⟨h4, notCrossing_translate t hnc⟩) h')
  simpa using this

end

/-! ## All selected objects -/

theorem particlesOf_shifted (t : Vec ℝ) (xyz : List (Vec ℝ)) (masses : List ℝ) (idx : List Nat) :
    particlesOf (shifted t xyz) masses idx = translate t (particlesOf xyz masses idx) := by
  unfold translate particlesOf shifted
  rw [List.map_filterMap]
  apply List.filterMap_congr
  intro i _
  rw [List.getElem?_map]
  cases xyz[i]? with
  | none => rfl
  | some x => cases masses[i]? <;> rfl

theorem PointCloud.shift {xyz : List (Vec ℝ)} {masses : List ℝ} {objs : List (List Nat × ℝ)} (h : PointCloud xyz masses objs) (t : Vec ℝ) :
    PointCloud (shifted t xyz) masses objs :=
  ⟨by simpa [shifted] using h.lengths, h.masses_pos, h.objects, by simpa [shifted] using h.exist⟩

theorem roomFor_scale (b f g : ℝ) (hf : 0 < f) (ps : List (Particle ℝ)) (h : RoomFor b ps) : RoomFor (b * f) (ps.map (scale f g)) := by
  rcases h with rfl | ⟨hb, h⟩
  · exact .inl (zero_mul f)
  · exact .inr ⟨mul_pos hb hf, notCrossing_scale b f g hf ps h⟩

/-- The centre of an object in its box. -/
def InsideBox (L : ℝ) (ps : List (Particle ℝ)) : Prop := L = 0 ∨ ∀ p ∈ ps, ∀ a, 0 ≤ p.pos a ∧ p.pos a < L

theorem exists_upper (L : ℝ) (ps : List (Particle ℝ)) (a : Fin 3) (h : ∀ p ∈ ps, p.pos a < L) : ∃ b < L, ∀ p ∈ ps, p.pos a ≤ b := by
  induction ps with
  | nil => exact ⟨L - 1, by linarith, by simp⟩
  | cons p ps ih =>
    obtain ⟨b, hb, h'⟩ := ih fun q hq => h q (by simp [hq])
    refine ⟨max b (p.pos a), max_lt hb (h p (by simp)), ?_⟩
    intro q hq
    rcases List.mem_cons.1 hq with rfl | hq
    · exact le_max_right _ _
    · exact (h' q hq).trans (le_max_left _ _)

theorem centre_mean (choose : Nat → List Nat) (hch : ∀ n, 0 < n → ∃ j ∈ choose n, j < n) (limit : Nat) (L : ℝ) (center : Center)
    (ps : List (Particle ℝ)) (hne : ps ≠ []) (hm : ∀ p ∈ ps, 0 < p.mass) (h : RoomFor L ps) (v : Vec ℝ)
    (hv : centreOf choose limit L center ps = some v) :
    ∃ sub : List (Particle ℝ), sub.Sublist ps ∧ sub ≠ [] ∧ (center = .com → sub = ps) ∧ v = weightedMean sub := by
  have hu := unwrapped_room choose L ps (hch _ (List.length_pos_iff.2 hne)) h
  unfold unwrapped at hu
  unfold centreOf at hv
  dsimp only at hv
  rw [hu] at hv
  cases center with
  | mode =>
    obtain ⟨sub, h1, h2, h3⟩ := calcMode_is_mean _ _ _ _ hv
    exact ⟨sub, h1, fun e => hne (h2 e), by simp, h3⟩
  | com =>
    refine ⟨ps, List.Sublist.refl _, hne, fun _ => rfl, ?_⟩
    rw [← Option.some.inj hv]
    exact calcCoM_eq _ _ (totalMass_pos _ hne hm).ne'

theorem recentre_inside (choose : Nat → List Nat) (hch : ∀ n, 0 < n → ∃ j ∈ choose n, j < n) (limit : Nat) (L : ℝ) (center : Center)
    (ps : List (Particle ℝ)) (hne : ps ≠ []) (hm : ∀ p ∈ ps, 0 < p.mass) (h : RoomFor L ps) (hin : InsideBox L ps) (v : Vec ℝ)
    (hv : centreOf choose limit L center ps = some v) (a : Fin 3) : recentreAxis L (v a) = v a := by
  rcases hin with rfl | hin
  · unfold recentreAxis
    simp
  · obtain ⟨sub, h1, h2, -, rfl⟩ := centre_mean choose hch limit L center ps hne hm h v hv
    obtain ⟨b, hb, hb'⟩ := exists_upper L sub a fun p hp => (hin p (h1.subset hp) a).2
    have := weightedMean_bounds sub (fun p hp => (hm p (h1.subset hp)).le) (totalMass_pos sub h2 fun p hp => hm p (h1.subset hp)) a 0 b
      fun p hp => ⟨(hin p (h1.subset hp) a).1, hb' p hp⟩
    unfold recentreAxis
    dsimp only
    have h3 : ¬ weightedMean sub a ≥ L := by rw [ge_iff_le, not_le]; linarith [this.2]
    rw [if_neg h3, if_neg (not_lt.2 this.1)]

section
variable (c : Cfg ℝ) (hc : c.Pos)
    (xyz : List (Vec ℝ)) (masses : List ℝ) (box box' : ℝ) (objs : List (List Nat × ℝ)) (minPtcs : Int)
    (hmin : 1 ≤ minPtcs) (center : Center) (hs : PointCloud xyz masses objs) (t : Vec ℝ) (o o' : Obj)
    (ho : construct c ⟨xyz, masses, .nested (objs.map Prod.fst), .array (objs.map Prod.snd), box, minPtcs, center⟩ = .ok o)
    (ho' : construct c ⟨shifted t xyz, masses, .nested (objs.map Prod.fst), .array (objs.map Prod.snd), box', minPtcs, center⟩ = .ok o')
    (sel : List Int) (hsel : GoodSelection sel (resolved minPtcs objs).length)
    (hroom : Room box xyz masses objs minPtcs sel) (hroom' : Room box' (shifted t xyz) masses objs minPtcs sel)
    (choose : Nat → List Nat) (hch : ∀ n, 0 < n → ∃ j ∈ choose n, j < n) (limit : Nat)

theorem room_for (b : ℝ) (xyz : List (Vec ℝ)) (hroom : Room b xyz masses objs minPtcs sel) (z : Int) (hz : z ∈ sel) (obj : List Nat × ℝ)
    (hobj : (resolved minPtcs objs)[z.toNat]? = some obj) : RoomFor b (particlesOf xyz masses obj.1) := by
  rcases hroom with rfl | ⟨h1, -, h3⟩
  · exact .inl rfl
  · exact .inr ⟨h1, h3 z hz obj hobj⟩

include hc in
theorem inside_for (b : ℝ) (xyz : List (Vec ℝ)) (hroom : Room b xyz masses objs minPtcs sel) (g : ℝ) (idx : List Nat) :
    InsideBox (b * (c.inL / mpch c.h)) ((particlesOf xyz masses idx).map (scale (c.inL / mpch c.h) g)) := by
  have hf : 0 < c.inL / mpch c.h := div_pos hc.inL (mpch_pos hc.h)
  rcases hroom with rfl | ⟨h1, h2, -⟩
  · exact .inl (zero_mul _)
  · refine .inr ?_
    intro p hp a
    obtain ⟨q, hq, rfl⟩ := List.mem_map.1 hp
    have := h2 _ (mem_particlesOf hq).1 a
    exact ⟨mul_nonneg this.1 hf.le, mul_lt_mul_of_pos_right this.2 hf⟩

include hc hmin hs ho ho' hsel hroom hroom' hch

/-- Both calls, object by object. -/
theorem both_open : ∃ parts parts' r200, selectParticles o sel = .ok parts ∧ selectParticles o' sel = .ok parts' ∧
    fancy o.r200 (sel.map Int.toNat) = some r200 ∧ fancy o'.r200 (sel.map Int.toNat) = some r200 ∧
    r200.length = parts.length ∧ r200.length = parts'.length ∧ o'.center = o.center ∧
    List.Forall₂ (fun pr pr' => SameResults choose limit o.center o.box o'.box (fun a => t a * (c.inL / mpch c.h)) pr pr' ∧
      (∀ v, centreOf choose limit o.box o.center pr.1 = some v → ∀ a, recentreAxis o.box (v a) = v a) ∧
      (∀ v, centreOf choose limit o'.box o.center pr'.1 = some v → ∀ a, recentreAxis o'.box (v a) = v a))
      (parts.zip r200) (parts'.zip r200) := by
  have hs' := hs.shift t
  obtain ⟨hb, hcen, parts, r200, h1, h2, h3, h4, h5⟩ := prepared_of c xyz masses box objs minPtcs hmin center hs.lengths hs.objects hs.exist
    o ho sel hsel
  obtain ⟨hb', hcen', parts', r200', h1', h2', h3', h4', h5'⟩ := prepared_of c (shifted t xyz) masses box' objs minPtcs hmin center hs'.lengths
    hs'.objects hs'.exist o' ho' sel hsel
  have hr : r200' = r200 := by
    have e : o'.r200 = o.r200 := by
      rw [construct_eq c xyz masses box objs minPtcs center hs.lengths hs.objects] at ho
      rw [construct_eq c (shifted t xyz) masses box' objs minPtcs center hs'.lengths hs'.objects] at ho'
      rw [← Except.ok.inj ho, ← Except.ok.inj ho']
    rw [e, h2] at h2'
    exact (Option.some.inj h2').symm
  subst hr
  refine ⟨parts, parts', r200', h1, h1', h2, h2', h3, h3', hcen'.trans hcen.symm, ?_⟩
  rw [List.forall₂_iff_get]
  refine ⟨by simp only [List.length_zip]; omega, ?_⟩
  intro k hk hk'
  have hks : k < sel.length := by simp only [List.length_zip] at hk; omega
  have hz := hsel.2.2 sel[k] (List.getElem_mem hks)
  have hlt : (sel[k]).toNat < (resolved minPtcs objs).length := by omega
  have hget := List.getElem?_eq_getElem hlt
  have e1 := h5 k _ _ (List.getElem?_eq_getElem hks) hget
  have e1' := h5' k _ _ (List.getElem?_eq_getElem hks) hget
  have hR := room_for masses objs minPtcs sel box xyz hroom _ (List.getElem_mem hks) _ hget
  have hR' := room_for masses objs minPtcs sel box' _ hroom' _ (List.getElem_mem hks) _ hget
  have hmem : (resolved minPtcs objs)[(sel[k]).toNat] ∈ resolved minPtcs objs := List.getElem_mem hlt
  generalize (resolved minPtcs objs)[(sel[k]).toNat] = obj at *
  have hfp : 0 < c.inL / mpch c.h := div_pos hc.inL (mpch_pos hc.h)
  have hgp : 0 < c.inM / msunh10 c.h := div_pos hc.inM (msunh10_pos hc.h)
  have hI := inside_for c hc masses objs minPtcs sel box xyz hroom (c.inM / msunh10 c.h) obj.1
  have hI' := inside_for c hc masses objs minPtcs sel box' _ hroom' (c.inM / msunh10 c.h) obj.1
  have hS := roomFor_scale box _ (c.inM / msunh10 c.h) hfp _ hR
  have hS' := roomFor_scale box' _ (c.inM / msunh10 c.h) hfp _ hR'
  rw [← hb] at hI hS
  rw [← hb'] at hI' hS'
  rw [particlesOf_shifted, translate_scale] at hI' hS'
  rw [particlesOf_shifted, translate_scale] at e1'
  have e2 : (parts.zip r200').get ⟨k, hk⟩ = _ := (List.getElem?_eq_some_iff.1 e1).2
  have e2' : (parts'.zip r200').get ⟨k, hk'⟩ = _ := (List.getElem?_eq_some_iff.1 e1').2
  rw [e2, e2']
  have hne : (particlesOf xyz masses obj.1).map (scale (c.inL / mpch c.h) (c.inM / msunh10 c.h)) ≠ [] := by
    have hl := particlesOf_length xyz masses hs.lengths obj.1 (hs.exist obj (List.mem_of_mem_filter hmem))
    have h6 := (List.mem_filter.1 hmem).2
    simp only [decide_eq_true_eq] at h6
    intro h0
    have := congrArg List.length h0
    simp only [List.length_map, List.length_nil] at this
    omega
  have hm : ∀ p ∈ (particlesOf xyz masses obj.1).map (scale (c.inL / mpch c.h) (c.inM / msunh10 c.h)), 0 < p.mass := by
    intro p hp
    obtain ⟨q, hq, rfl⟩ := List.mem_map.1 hp
    exact mul_pos (hs.masses_pos _ (mem_particlesOf hq).2) hgp
  generalize (particlesOf xyz masses obj.1).map (scale (c.inL / mpch c.h) (c.inM / msunh10 c.h)) = ps at *
  refine ⟨same_results hch _ _ _ _ _ hne hm hS hS', ?_, ?_⟩
  · intro v hv a
    exact recentre_inside choose hch limit _ _ _ hne hm hS hI v hv a
  · intro v hv a
    refine recentre_inside choose hch limit _ _ _ (by simpa [translate] using hne) ?_ hS' hI' v hv a
    intro p hp
    obtain ⟨q, hq, rfl⟩ := List.mem_map.1 hp
    exact hm q hq

variable (c' : Cfg ℝ)

/-- C150. Two point clouds which differ by a displacement, each without periodicity or in a periodic box with enough room for the selected objects:
their shapes are the same, entry by entry (or both calls fail in the same way), whatever the schedules of the parallel loops. -/
theorem C150_shapes (sol : Solver) (katz : Katz) (whole : Bool) (out out' : Except ShapeErr (List (List ShapeEntry)))
    (hrun : GetShapeCat c' sol choose limit o katz whole sel out)
    (hrun' : GetShapeCat c' sol choose limit o' katz whole sel out') : out' = out := by
  obtain ⟨parts, parts', r200, h1, h1', h2, h2', h3, h3', h4, h5⟩ := both_open c hc xyz masses box box' objs minPtcs hmin center hs t o o' ho ho'
    sel hsel hroom hroom' choose hch limit
  rw [getShapeCat_fn c' sol choose limit o katz whole sel parts h1 r200 h2 h3 out hrun,
    getShapeCat_fn c' sol choose limit o' katz whole sel parts' h1' r200 h2' h3' out' hrun', h4]
  unfold shapesOf
  rw [mapM_eq_of_map]
  generalize parts.zip r200 = l at *
  generalize parts'.zip r200 = l' at *
  induction h5 with
  | nil => rfl
  | @cons pr pr' _ _ h _ ih =>
    simp only [List.map_cons, List.cons.injEq]
    refine ⟨?_, ih⟩
    rw [h.1.shapeCentre]
    cases shapeCentre choose limit o.box o.center pr.1 with
    | none => rfl
    | some v =>
      simp only [Option.map_some, Option.some.injEq]
      exact h.1.shapes katz sol whole v

/-- C150. The same for density profiles (spherical shells). -/
theorem C150_profiles (radii : List ℝ) (hradii : radii ≠ []) (out out' : Except Err (List (List ℝ)))
    (hrun : EstDensProfs c' choose limit o radii sel out) (hrun' : EstDensProfs c' choose limit o' radii sel out') : out' = out := by
  obtain ⟨parts, parts', r200, h1, h1', h2, h2', h3, h3', h4, h5⟩ := both_open c hc xyz masses box box' objs minPtcs hmin center hs t o o' ho ho'
    sel hsel hroom hroom' choose hch limit
  obtain ⟨edges, hedges⟩ : ∃ e, sphEdges radii = some e := by
    unfold sphEdges
    rw [List.getLast?_eq_some_getLast hradii]
    exact ⟨_, rfl⟩
  rw [estDensProfs_fn c' choose limit o radii edges hedges sel parts h1 r200 h2 h3 out hrun,
    estDensProfs_fn c' choose limit o' radii edges hedges sel parts' h1' r200 h2' h3' out' hrun', h4]
  unfold profilesOf
  rw [mapM_eq_of_map]
  generalize parts.zip r200 = l at *
  generalize parts'.zip r200 = l' at *
  induction h5 with
  | nil => rfl
  | @cons pr pr' _ _ h _ ih =>
    simp only [List.map_cons, List.cons.injEq]
    refine ⟨?_, ih⟩
    rw [h.1.centre]
    cases centreOf choose limit o.box o.center pr.1 with
    | none => rfl
    | some v =>
      simp only [Option.map_some, Option.some.injEq]
      rw [h.1.profile edges v]

/-- C150. The same for kernel-based density profiles. -/
theorem C150_kernel (radii : List ℝ) (out out' : Except KernelErr (List (List ℝ)))
    (hrun : EstDensProfsKernel c' choose limit o radii sel out)
    (hrun' : EstDensProfsKernel c' choose limit o' radii sel out') : out' = out := by
  obtain ⟨parts, parts', r200, h1, h1', h2, h2', h3, h3', h4, h5⟩ := both_open c hc xyz masses box box' objs minPtcs hmin center hs t o o' ho ho'
    sel hsel hroom hroom' choose hch limit
  have hsame : kernelOf choose limit o'.box o.center radii (parts'.zip r200) =
      kernelOf choose limit o.box o.center radii (parts.zip r200) := by
    clear h1 h1' h2 h2' hrun hrun'
    generalize parts.zip r200 = l at *
    generalize parts'.zip r200 = l' at *
    induction h5 with
    | nil => rfl
    | @cons pr pr' _ _ h _ ih =>
      unfold kernelOf
      rw [h.1.centre]
      cases centreOf choose limit o.box o.center pr.1 with
      | none => rfl
      | some v =>
        simp only [Option.map_some]
        rw [h.1.distances v, ih, h.1.r200]
  rw [estDensProfsKernel_fn c' choose limit o radii sel parts h1 r200 h2 out hrun,
    estDensProfsKernel_fn c' choose limit o' radii sel parts' h1' r200 h2' out' hrun', h4, hsame]

/-- C150. Masses are the same, and centres move along (all in physical units). -/
theorem C150_centres (hh : c'.h = c.h) (hc' : c'.Pos) (out out' : Except Err (List (Vec ℝ × ℝ)))
    (hrun : GetMassesCenters c' choose limit o sel out) (hrun' : GetMassesCenters c' choose limit o' sel out') :
    (out = .error .recursion ∧ out' = .error .recursion) ∨
    ∃ res res', out = .ok res ∧ out' = .ok res' ∧ List.Forall₂ (fun x x' : Vec ℝ × ℝ => x'.2 = x.2 ∧
      ∀ a, x'.1 a * c'.outL = x.1 a * c'.outL + t a * c.inL) res res' := by
  obtain ⟨parts, parts', r200, h1, h1', h2, h2', h3, h3', h4, h5⟩ := both_open c hc xyz masses box box' objs minPtcs hmin center hs t o o' ho ho'
    sel hsel hroom hroom' choose hch limit
  rw [getMassesCenters_fn c' choose limit o sel parts h1 out hrun, getMassesCenters_fn c' choose limit o' sel parts' h1' out' hrun', h4]
  have key : Option.Rel (List.Forall₂ fun x x' : Vec ℝ × ℝ => x'.2 = x.2 ∧ (∀ a, recentreAxis o.box (x.1 a) = x.1 a) ∧
      (∀ a, recentreAxis o'.box (x'.1 a) = x'.1 a) ∧ x'.1 = x.1 + fun a => t a * (c.inL / mpch c.h))
      (parts.mapM fun ps => (centreOf choose limit o.box o.center ps).map fun v => (v, totalMass ps))
      (parts'.mapM fun ps => (centreOf choose limit o'.box o.center ps).map fun v => (v, totalMass ps)) := by
    have e : parts = (parts.zip r200).map Prod.fst := (List.map_fst_zip (by omega)).symm
    have e' : parts' = (parts'.zip r200).map Prod.fst := (List.map_fst_zip (by omega)).symm
    clear h1 h1' h2 h2' hrun hrun'
    revert h5 e e'
    generalize parts.zip r200 = l
    generalize parts'.zip r200 = l'
    intro h5 e e'
    subst e e'
    clear h3 h3'
    induction h5 with
    | nil => exact .some .nil
    | @cons pr pr' rest rest' h _ ih =>
      obtain ⟨hS, hI, hI'⟩ := h
      rw [List.map_cons, List.map_cons, List.mapM_cons, List.mapM_cons, hS.centre]
      rw [hS.centre] at hI'
      cases hcv : centreOf choose limit o.box o.center pr.1 with
      | none => exact .none
      | some v =>
        simp only [Option.map_some, Option.bind_eq_bind, Option.bind_some]
        revert ih
        generalize (rest.map Prod.fst).mapM (fun ps => (centreOf choose limit o.box o.center ps).map fun v => (v, totalMass ps)) = A
        generalize (rest'.map Prod.fst).mapM (fun ps => (centreOf choose limit o'.box o.center ps).map fun v => (v, totalMass ps)) = B
        intro ih
        cases ih with
        | none => exact .none
        | some hr =>
          refine .some (.cons ⟨hS.mass, ?_, ?_, rfl⟩ hr)
          · exact hI v hcv
          · exact hI' _ (by rw [hcv]; rfl)
  unfold massesOf
  revert key
  generalize (parts.mapM fun ps => (centreOf choose limit o.box o.center ps).map fun v => (v, totalMass ps)) = A
  generalize (parts'.mapM fun ps => (centreOf choose limit o'.box o.center ps).map fun v => (v, totalMass ps)) = B
  intro key
  cases key with
  | none => exact .inl ⟨rfl, rfl⟩
  | @some xs xs' hr =>
    right
    refine ⟨_, _, rfl, rfl, ?_⟩
    rw [List.forall₂_map_left_iff, List.forall₂_map_right_iff]
    refine hr.imp ?_
    rintro ⟨v, m⟩ ⟨v', m'⟩ ⟨e, h6, h7, e'⟩
    simp only at e e' h6 h7 ⊢
    refine ⟨by rw [e], fun a => ?_⟩
    rw [h6 a, h7 a, e', hh]
    have h8 := (mpch_pos hc.h).ne'
    have h9 := hc'.outL.ne'
    simp only [Pi.add_apply]
    field_simp

end

/-- C150. Every point cloud has room somewhere: moved by some vector into some periodic box, so that the theorems above (and all results about
periodic boxes) apply to it. -/
theorem C150_room (xyz : List (Vec ℝ)) (masses : List ℝ) (objs : List (List Nat × ℝ)) (hs : PointCloud xyz masses objs) (minPtcs : Int)
    (sel : List Int) :
    ∃ t box, Sensible (shifted t xyz) masses box objs ∧ 0 < box ∧ Room box (shifted t xyz) masses objs minPtcs sel := by
  obtain ⟨B, hB, hb⟩ := exists_bound xyz
  have hs' := hs.shift fun _ => B
  have hin : ∀ x ∈ shifted (fun _ => B) xyz, ∀ a, 0 ≤ x a ∧ x a < 2 * B := by
    intro x hx a
    obtain ⟨y, hy, rfl⟩ := List.mem_map.1 hx
    have := abs_lt.1 (hb y hy a)
    simp only [Pi.add_apply]
    constructor <;> linarith [this.1, this.2]
  refine ⟨fun _ => B, 4 * B, ⟨hs'.lengths, by linarith, fun x hx a => ⟨(hin x hx a).1, by linarith [(hin x hx a).2]⟩, hs'.masses_pos, hs'.objects,
    hs'.exist⟩, by linarith, .inr ⟨by linarith, fun x hx a => ⟨(hin x hx a).1, by linarith [(hin x hx a).2]⟩, ?_⟩⟩
  intro z _ obj _ p hp q hq a
  have h1 := hin _ (mem_particlesOf hp).1 a
  have h2 := hin _ (mem_particlesOf hq).1 a
  rw [abs_le]
  constructor <;> linarith [h1.1, h1.2, h2.1, h2.2]

/-- C150. Without periodicity (`L_BOX = 0`), `getMassesCenters` returns for each selected object the total mass, and the mean position, weighted by mass, of
its particles: of all of them (`CENTER = 'com'`), or of some of them (`'mode'`).  In physical units. -/
theorem C150_means (c : Cfg ℝ) (hc : c.Pos) (xyz : List (Vec ℝ)) (masses : List ℝ) (objs : List (List Nat × ℝ)) (minPtcs : Int)
    (hmin : 1 ≤ minPtcs) (center : Center) (hs : PointCloud xyz masses objs) (o : Obj)
    (ho : construct c ⟨xyz, masses, .nested (objs.map Prod.fst), .array (objs.map Prod.snd), 0, minPtcs, center⟩ = .ok o)
    (sel : List Int) (hsel : GoodSelection sel (resolved minPtcs objs).length)
    (choose : Nat → List Nat) (hch : ∀ n, 0 < n → ∃ j ∈ choose n, j < n) (limit : Nat) (c' : Cfg ℝ) (hh : c'.h = c.h) (hc' : c'.Pos)
    (res : List (Vec ℝ × ℝ)) (hrun : GetMassesCenters c' choose limit o sel (.ok res)) :
    res.length = sel.length ∧
    ∀ (k : Nat) (z : Int) (obj : List Nat × ℝ), sel[k]? = some z → (resolved minPtcs objs)[z.toNat]? = some obj →
      ∃ x, res[k]? = some x ∧ x.2 * c'.outM = totalMass (particlesOf xyz masses obj.1) * c.inM ∧
        ∃ sub : List (Particle ℝ), sub.Sublist (particlesOf xyz masses obj.1) ∧ sub ≠ [] ∧
          (center = .com → sub = particlesOf xyz masses obj.1) ∧ ∀ a, x.1 a * c'.outL = weightedMean sub a * c.inL := by
  obtain ⟨hb, hcen, parts, r200, h1, h2, h3, h4, h5⟩ := prepared_of c xyz masses 0 objs minPtcs hmin center hs.lengths hs.objects hs.exist
    o ho sel hsel
  rw [zero_mul] at hb
  have hfp : 0 < c.inL / mpch c.h := div_pos hc.inL (mpch_pos hc.h)
  have hgp : 0 < c.inM / msunh10 c.h := div_pos hc.inM (msunh10_pos hc.h)
  have hout := getMassesCenters_fn c' choose limit o sel parts h1 _ hrun
  unfold massesOf at hout
  split at hout
  · cases hout
  · next xs hxs =>
    have hout := Except.ok.inj hout
    obtain ⟨hl, hg⟩ := mapM_some_get _ _ _ hxs
    refine ⟨by rw [hout, List.length_map, hl, h4], ?_⟩
    intro k z obj hk hobj
    have hp := (List.getElem?_zip_eq_some.1 (h5 k z obj hk hobj)).1
    obtain ⟨x, hx, hF⟩ := hg k _ hp
    obtain ⟨v, hv, rfl⟩ := Option.map_eq_some_iff.1 hF
    have hmem : obj ∈ resolved minPtcs objs := List.mem_of_getElem? hobj
    have hne : particlesOf xyz masses obj.1 ≠ [] := by
      have hl := particlesOf_length xyz masses hs.lengths obj.1 (hs.exist obj (List.mem_of_mem_filter hmem))
      have h6 := (List.mem_filter.1 hmem).2
      simp only [decide_eq_true_eq] at h6
      intro h0
      have := congrArg List.length h0
      simp only [List.length_nil] at this
      omega
    have hm : ∀ p ∈ (particlesOf xyz masses obj.1).map (scale (c.inL / mpch c.h) (c.inM / msunh10 c.h)), 0 < p.mass := by
      intro p hp
      obtain ⟨q, hq, rfl⟩ := List.mem_map.1 hp
      exact mul_pos (hs.masses_pos _ (mem_particlesOf hq).2) hgp
    rw [hb] at hv
    obtain ⟨sub', hs1, hs2, hs3, hs4⟩ := centre_mean choose hch limit 0 o.center _ (by simpa using hne) hm (.inl rfl) v hv
    obtain ⟨sub, hsub, rfl⟩ := List.sublist_map_iff.1 hs1
    refine ⟨_, by rw [hout, List.getElem?_map, hx]; rfl, ?_, sub, hsub, by simpa using hs2, ?_, ?_⟩
    · simp only
      have e : totalMass ((particlesOf xyz masses obj.1).map (scale (c.inL / mpch c.h) (c.inM / msunh10 c.h))) =
          totalMass (particlesOf xyz masses obj.1) * (c.inM / msunh10 c.h) := by
        unfold totalMass
        rw [List.map_map, mul_comm, ← sum_map_mul_left']
        congr 1
        apply List.map_congr_left
        intro p _
        simp [scale, mul_comm]
      rw [e, hh]
      have h8 := (msunh10_pos hc.h).ne'
      have h9 := hc'.outM.ne'
      field_simp
    · intro hcom
      have := hs3 (hcen.trans hcom)
      have := congrArg List.length this
      simp only [List.length_map] at this
      exact hsub.eq_of_length this
    · intro a
      simp only
      have e : recentreAxis o.box (v a) = v a := by
        rw [hb]; unfold recentreAxis; simp
      have e2 : weightedMean (sub.map (scale (c.inL / mpch c.h) (c.inM / msunh10 c.h))) a = weightedMean sub a * (c.inL / mpch c.h) := by
        rw [weightedMean_scale _ _ hgp.ne']
      rw [e, hs4, e2, hh]
      have h8 := (mpch_pos hc.h).ne'
      have h9 := hc'.outL.ne'
      field_simp

/-- Non-vacuity: a point cloud around the origin (with negative coordinates), without periodicity, and the same in a box of size 40. -/
example : PointCloud [![-1, -2, 0], ![3, 1, -1], ![0, 0, 2]] [1, 2, 3] [([0, 1, 2], 5)] ∧
    GoodSelection [0] (resolved 1 [([0, 1, 2], (5 : ℝ))]).length ∧
    Room 0 [![-1, -2, 0], ![3, 1, -1], ![0, 0, 2]] [1, 2, 3] [([0, 1, 2], 5)] 1 [0] ∧
    Room 40 (shifted ![10, 10, 10] [![-1, -2, 0], ![3, 1, -1], ![0, 0, 2]]) [1, 2, 3] [([0, 1, 2], 5)] 1 [0] := by
  have bd : ∀ x ∈ shifted ![10, 10, 10] [![-1, -2, 0], ![3, 1, -1], ![0, 0, 2]], ∀ a, (0 : ℝ) ≤ x a ∧ x a < 20 := by
    intro x hx a
    simp only [shifted, List.map_cons, List.map_nil, List.mem_cons, List.not_mem_nil, or_false] at hx
    rcases hx with rfl | rfl | rfl <;> fin_cases a <;> norm_num
  refine ⟨⟨rfl, ?_, by simp, ?_⟩, ?_, .inl rfl, .inr ⟨by norm_num, ?_, ?_⟩⟩
  · intro m hm
    simp only [List.mem_cons, List.not_mem_nil, or_false] at hm
    rcases hm with rfl | rfl | rfl <;> norm_num
  · intro o ho i hi
    simp only [List.mem_singleton] at ho
    subst ho
    simp only [List.mem_cons, List.not_mem_nil, or_false] at hi
    simp only [List.length_cons, List.length_nil]
    omega
  · simp [GoodSelection, resolved]
  · intro x hx a
    exact ⟨(bd x hx a).1, by linarith [(bd x hx a).2]⟩
  · intro z _ obj _ p hp q hq a
    have h1 := bd _ (mem_particlesOf hp).1 a
    have h2 := bd _ (mem_particlesOf hq).1 a
    rw [abs_le]
    constructor <;> linarith [h1.1, h1.2, h2.1, h2.2]

end Verif.Api
