import Verif.Api.Moved
import Verif.Api.Centres
import Verif.Shapes.Similar

/-!
# Similar simulations have similar results (C136)
-/

set_option linter.unusedSectionVars false

namespace Verif.Api

open Verif.Units Verif.Catalogue Verif.Periodic Verif.Binning Verif.Par
open Verif.Shapes (Solver Settings ObjData Pt Part Morph Kind aloneShapes GoodSolver SimilarShape zoomObj zoomSettings
  aloneShapes_zoom cyRespect_zoom report nanZero UpToSign)

/-! ## Specification -/

/-- An axis up to its sign; components may be NaN. -/
def SameAxis (u v : Fin 3 → Option ℝ) : Prop := v = u ∨ v = fun i => (u i).map (- ·)

/-- Entries of similar objects, the second one with lengths `f` times as large: the size is `f` times as large, axis ratios are the same,
and so are the axes if no two of them have equal length. -/
structure SimilarEntry (f : ℝ) (e e' : ShapeEntry) : Prop where
  d : e'.d = e.d.map (· * f)
  q : e'.q = e.q
  s : e'.s = e.s
  conv : e'.conv = e.conv
  axes : ∀ q s, e.q = some q → e.s = some s → 0 < s → s < q → q < 1 →
    SameAxis e.major e'.major ∧ SameAxis e.inter e'.inter ∧ SameAxis e.minor e'.minor

/-- All lengths times `f`. -/
def stretch (f : ℝ) (xyz : List (Vec ℝ)) : List (Vec ℝ) := xyz.map fun x a => x a * f

/-! ## One object -/

theorem particlesOf_stretch (f g : ℝ) (xyz : List (Vec ℝ)) (masses : List ℝ) (idx : List Nat) :
    particlesOf (stretch f xyz) (masses.map (· * g)) idx = (particlesOf xyz masses idx).map (scale f g) := by
  unfold particlesOf stretch
  rw [List.map_filterMap]
  apply List.filterMap_congr
  intro i _
  rw [List.getElem?_map, List.getElem?_map]
  cases xyz[i]? <;> cases masses[i]? <;> rfl

section
variable {f g : ℝ} (hf : 0 < f) (hg : 0 < g)

theorem weightedMean_scale' (hg : 0 < g) (ps : List (Particle ℝ)) :
    weightedMean (ps.map (scale f g)) = fun a => weightedMean ps a * f :=
  funext fun a => weightedMean_scale f g hg.ne' ps a

theorem dist_scale (hf : 0 < f) (u v : Vec ℝ) :
    Periodic.dist (fun a => u a * f) (fun a => v a * f) = Periodic.dist u v * f := by
  unfold Periodic.dist
  rw [← Real.sqrt_sq hf.le, ← Real.sqrt_mul' _ (sq_nonneg f), Real.sqrt_sq hf.le]
  congr 1
  ring

include hf hg

theorem calcMode_scale (fuel : Nat) (ps : List (Particle ℝ)) (rad : ℝ) :
    calcMode fuel (ps.map (scale f g)) (rad * f) = (calcMode fuel ps rad).map fun v a => v a * f := by
  induction fuel generalizing ps rad with
  | zero => rfl
  | succ n ih =>
    rw [calcMode_succ, calcMode_succ]
    have hfil : (ps.map (scale f g)).filter
        (fun p => decide (Periodic.dist p.pos (weightedMean (ps.map (scale f g))) < rad * f)) =
        (ps.filter fun p => decide (Periodic.dist p.pos (weightedMean ps) < rad)).map (scale f g) := by
      rw [List.filter_map]
      congr 1
      apply List.filter_congr
      intro p _
      simp only [Function.comp_def, weightedMean_scale' hg]
      show decide (Periodic.dist (fun a => p.pos a * f) _ < _) = _
      rw [dist_scale hf, decide_eq_decide, mul_lt_mul_iff_left₀ hf]
    rw [hfil, List.length_map]
    split
    · rw [weightedMean_scale' hg]
      rfl
    · rw [mul_right_comm, ih]

theorem respectPBC_scale (choose : List Nat) (xyz : List (Vec ℝ)) (L : ℝ) :
    respectPBCNoRef choose (xyz.map fun x a => x a * f) (L * f) =
      (respectPBCNoRef choose xyz L).map fun x a => x a * f := by
  have := respectPBC_relabel (Equiv.refl _) f hf choose xyz L
  have e : relabel (Equiv.refl (Fin 3)) f = fun (x : Vec ℝ) a => x a * f := by
    funext x a
    simp [relabel, mul_comm]
  rw [e, mul_comm f L] at this
  exact this

theorem unwrapped_scale (choose : Nat → List Nat) (L : ℝ) (ps : List (Particle ℝ)) :
    unwrapped choose (L * f) (ps.map (scale f g)) = (unwrapped choose L ps).map (scale f g) := by
  unfold unwrapped
  have : (ps.map (scale f g)).map (fun p => p.pos) = (ps.map fun p => p.pos).map fun x a => x a * f := by
    simp [scale, Function.comp_def]
  rw [this, List.length_map, respectPBC_scale hf hg, List.zipWith_map, List.map_zipWith]
  rfl

theorem calcCoM_scale (choose : List Nat) (ps : List (Particle ℝ)) :
    calcCoM choose (ps.map (scale f g)) = fun a => calcCoM choose ps a * f := by
  have : (ps.map (scale f g)).map (fun p => p.pos) = (ps.map fun p => p.pos).map fun x a => x a * f := by
    simp [scale, Function.comp_def]
  have hr := reference_relabel (Equiv.refl _) f choose (ps.map fun p => p.pos)
  have e : relabel (Equiv.refl (Fin 3)) f = fun (x : Vec ℝ) a => x a * f := by
    funext x a
    simp [relabel, mul_comm]
  rw [e] at hr
  unfold calcCoM
  rw [this, hr]
  funext a
  have hM : ((ps.map (scale f g)).map fun p => p.mass).sum = (ps.map fun p => p.mass).sum * g := by
    rw [List.map_map, ← List.sum_map_mul_right]
    rfl
  dsimp only
  rw [add_mul, hM, List.map_map, ← List.sum_map_mul_right ps (fun p => p.mass * (p.pos a - reference choose (ps.map fun p => p.pos) a) / (ps.map fun p => p.mass).sum)]
  congr 2
  apply List.map_congr_left
  intro p _
  simp only [Function.comp_def, scale]
  rw [← sub_mul, mul_mul_mul_comm, mul_comm g f, ← mul_assoc, mul_div_mul_right _ _ hg.ne', mul_div_right_comm]

theorem centreOf_scale (choose : Nat → List Nat) (limit : Nat) (L : ℝ) (ps : List (Particle ℝ)) :
    centreOf choose limit (L * f) .com (ps.map (scale f g)) =
      (centreOf choose limit L .com ps).map fun v a => v a * f := by
  have := unwrapped_scale hf hg choose L ps
  unfold unwrapped at this
  unfold centreOf
  dsimp only
  rw [this, List.length_map, calcCoM_scale hf hg]
  rfl

theorem axisExtent_scale (ps : List (Particle ℝ)) (a : Fin 3) :
    axisExtent (ps.map (scale f g)) a = axisExtent ps a * f := by
  have h : ((ps.map (scale f g)).map fun p => p.pos a) = (ps.map fun p => p.pos a).map (f * ·) := by
    simp [scale, Function.comp_def, mul_comm]
  unfold axisExtent
  rw [h, max?_scale f hf, min?_scale f hf]
  cases (ps.map fun p => p.pos a).max? <;> cases (ps.map fun p => p.pos a).min? <;> simp [mul_comm f, sub_mul]

theorem shapeCentre_scale (choose : Nat → List Nat) (limit : Nat) (L : ℝ) (center : Center) (ps : List (Particle ℝ)) :
    shapeCentre choose limit (L * f) center (ps.map (scale f g)) =
      (shapeCentre choose limit L center ps).map fun v a => v a * f := by
  have := unwrapped_scale hf hg choose L ps
  unfold unwrapped at this
  unfold shapeCentre
  dsimp only
  rw [this, List.length_map]
  cases center with
  | com => simp only [Option.map_some, calcCoM_scale hf hg]
  | mode =>
    simp only [axisExtent_scale hf hg]
    rw [← max_mul_of_nonneg _ _ hf.le, ← max_mul_of_nonneg _ _ hf.le, calcMode_scale hf hg]

/-- The particles after the second kind of unwrapping. -/
theorem cy_scale (L : ℝ) (ps : List (Particle ℝ)) :
    List.zipWith Particle.mk (cyRespectPBCNoRef ((ps.map (scale f g)).map fun p => p.pos) (L * f))
      ((ps.map (scale f g)).map fun p => p.mass) =
    (List.zipWith Particle.mk (cyRespectPBCNoRef (ps.map fun p => p.pos) L) (ps.map fun p => p.mass)).map (scale f g) := by
  have h1 : (ps.map (scale f g)).map (fun p => p.pos) = (ps.map fun p => p.pos).map fun x a => x a * f := by
    simp [scale, Function.comp_def]
  have h2 : (ps.map (scale f g)).map (fun p => p.mass) = (ps.map fun p => p.mass).map (· * g) := by
    simp [scale, Function.comp_def]
  rw [h1, h2, cyRespect_zoom hf, List.zipWith_map, List.map_zipWith]
  rfl

theorem aloneProfile_scale (L : ℝ) (edges : List ℝ) (ps : List (Particle ℝ)) (v : Vec ℝ) (r : ℝ) :
    aloneProfile (L * f) edges ⟨ps.map (scale f g), fun a => v a * f, r * f⟩ =
      (aloneProfile L edges ⟨ps, v, r⟩).map (· * (g / f ^ 3)) := by
  unfold aloneProfile
  dsimp only
  rw [cy_scale hf hg, densProfSph_eq _ _ _ _ _ (by simp), densProfSph_eq _ _ _ _ _ (by simp), List.map_map]
  apply List.map_congr_left
  intro e _
  generalize List.zipWith Particle.mk (cyRespectPBCNoRef (ps.map fun p => p.pos) L) (ps.map fun p => p.mass) = qs
  have hq : ∀ p, qSph (fun a => v a * f) (r * f) e.1 e.2 (scale f g p) = qSph v r e.1 e.2 p := by
    intro p
    unfold qSph
    have hd : dist2 (fun a => v a * f) (scale f g p).pos = dist2 v p.pos * f ^ 2 := by
      unfold dist2 scale
      ring
    have hmul : ∀ x : ℝ, (x * (r * f)) ^ 2 = (x * r) ^ 2 * f ^ 2 := fun x => by ring
    rw [hd, hmul, hmul, decide_eq_decide, ge_iff_le, ge_iff_le, mul_le_mul_iff_left₀ (by positivity),
      mul_lt_mul_iff_left₀ (by positivity)]
  simp only [Function.comp_def]
  rw [List.filter_map, List.map_map, ← List.sum_map_mul_right]
  have hfil : (qSph (fun a => v a * f) (r * f) e.1 e.2 ∘ scale f g) = qSph v r e.1 e.2 := funext hq
  rw [hfil]
  congr 1
  apply List.map_congr_left
  intro p _
  simp only [Function.comp_def, scale]
  have : 4 / 3 * Real.pi * ((e.2 * (r * f)) ^ 3 - (e.1 * (r * f)) ^ 3) =
      4 / 3 * Real.pi * ((e.2 * r) ^ 3 - (e.1 * r) ^ 3) * f ^ 3 := by ring
  rw [this, mul_div_mul_comm]

theorem massDistances_scale (L : ℝ) (ps : List (Particle ℝ)) (v : Vec ℝ) :
    massDistances (L * f) (fun a => v a * f) (ps.map (scale f g)) =
      (massDistances L v ps).map fun md => (md.1 * g, md.2 * f) := by
  unfold massDistances
  rw [cy_scale hf hg, List.map_map, List.map_map]
  apply List.map_congr_left
  intro p _
  simp only [Function.comp_def, radius_scale f g hf]
  rfl

theorem kernelWidth_stretch (r200 d : ℝ) : kernelWidth (r200 * f) (d * f) = kernelWidth r200 d * f := by
  unfold kernelWidth
  rw [← mul_assoc 0.1 r200 f, mul_div_mul_right _ _ hf.ne']
  ring

theorem densKernel_stretch (r200 r : ℝ) (l : List (ℝ × ℝ)) :
    densKernel (r200 * f) (l.map fun md => (md.1 * g, md.2 * f)) (r * f) = densKernel r200 l r * (g / f ^ 3) := by
  rw [densKernel_eq_sum, densKernel_eq_sum, ← List.sum_map_mul_right, List.map_map]
  congr 1
  apply List.map_congr_left
  intro p _
  simp only [Function.comp_def, kernelWidth_stretch hf hg, kTilde_scale f _ _ _ hf, mul_pow]
  rw [mul_right_comm, mul_div_mul_comm]

theorem recentreAxis_scale (L x : ℝ) : recentreAxis (L * f) (x * f) = recentreAxis L x * f := by
  have h1 : x * f ≥ L * f ↔ x ≥ L := by
    rw [ge_iff_le, ge_iff_le, mul_le_mul_iff_left₀ hf]
  have h2 : ∀ y : ℝ, y * f < 0 ↔ y < 0 := fun y => by
    exact ⟨fun h => by nlinarith, fun h => mul_neg_of_neg_of_pos h hf⟩
  unfold recentreAxis
  dsimp only
  by_cases h : x ≥ L
  · rw [if_pos (h1.2 h), if_pos h, ← sub_mul]
    simp only [h2]
    split <;> ring
  · rw [if_neg (fun k => h (h1.1 k)), if_neg h]
    simp only [h2]
    split <;> ring

theorem nanZero_scale (x : ℝ) : nanZero (x * f) = (nanZero x).map (· * f) := by
  unfold nanZero
  by_cases h : x = 0
  · simp [h]
  · rw [if_neg (mul_ne_zero h hf.ne'), if_neg h]
    rfl

theorem nanZero_neg (x : ℝ) : nanZero (-x) = (nanZero x).map (- ·) := by
  unfold nanZero
  by_cases h : x = 0
  · simp [h]
  · rw [if_neg (neg_ne_zero.2 h), if_neg h]
    rfl

theorem entryOf_similar (fac : ℝ) (m m' : Morph) (h : SimilarShape f m m') :
    SimilarEntry f (entryOf fac m) (entryOf fac m') := by
  have hax : ∀ u v : Vec ℝ, UpToSign v u → SameAxis (fun i => nanZero (u i)) (fun i => nanZero (v i)) := by
    rintro u v (rfl | rfl)
    · exact .inl rfl
    · exact .inr (funext fun i => nanZero_neg hf hg (u i))
  have hq : m'.q = m.q := h.q
  have hs : m'.s = m.s := h.s
  have hd : m'.d = m.d * f := h.d
  refine ⟨?_, ?_, ?_, ?_, ?_⟩
  · simp only [entryOf, report, hd, nanZero_scale hf hg, Option.map_map]
    congr 1
    funext x
    simp only [Function.comp_def]
    ring
  · simp only [entryOf, report, hq]
  · simp only [entryOf, report, hs]
  · simp only [entryOf, report, hq]
  · intro q s eq es h1 h2 h3
    have e1 : m.q = q := by
      simp only [entryOf, report, nanZero] at eq
      split at eq
      · cases eq
      · exact Option.some.inj eq
    have e2 : m.s = s := by
      simp only [entryOf, report, nanZero] at es
      split at es
      · cases es
      · exact Option.some.inj es
    obtain ⟨a1, a2, a3⟩ := h.axes (by show 0 < m.s; rwa [e2]) (by show m.s < m.q; rwa [e1, e2]) (by show m.q < 1; rwa [e1])
    simp only [Matrix.one_mulVec] at a1 a2 a3
    exact ⟨hax _ _ a1, hax _ _ a2, hax _ _ a3⟩

end

/-! ## Both objects -/

section
variable (c : Cfg ℝ) (hc : c.Pos) (f g : ℝ) (hf : 0 < f) (hg : 0 < g)
    (xyz : List (Vec ℝ)) (masses : List ℝ) (box : ℝ) (objs : List (List Nat × ℝ)) (minPtcs : Int)
    (hmin : 1 ≤ minPtcs) (center : Center) (hs : Sensible xyz masses box objs) (o o' : Obj)
    (ho : construct c ⟨xyz, masses, .nested (objs.map Prod.fst), .array (objs.map Prod.snd), box,
      minPtcs, center⟩ = .ok o)
    (ho' : construct c ⟨stretch f xyz, masses.map (· * g), .nested (objs.map Prod.fst),
      .array (objs.map fun ob => ob.2 * f), box * f, minPtcs, center⟩ = .ok o')
    (sel : List Int) (hsel : GoodSelection sel (resolved minPtcs objs).length)
include hc hf hg hmin hs ho ho' hsel

theorem both_scaled : ∃ parts r200, selectParticles o sel = .ok parts ∧
    selectParticles o' sel = .ok (parts.map fun ps => ps.map (scale f g)) ∧
    fancy o.r200 (sel.map Int.toNat) = some r200 ∧ fancy o'.r200 (sel.map Int.toNat) = some (r200.map (· * f)) ∧
    r200.length = parts.length ∧ o'.box = o.box * f ∧ o.center = center ∧ o'.center = center := by
  have hs' : Sensible (stretch f xyz) (masses.map (· * g)) (box * f) (objs.map fun ob => (ob.1, ob.2 * f)) := by
    refine ⟨by simp [stretch, hs.lengths], mul_pos hs.box_pos hf, ?_, ?_, by simpa using hs.objects, ?_⟩
    · intro x hx a
      obtain ⟨y, hy, rfl⟩ := List.mem_map.1 hx
      have := hs.inside y hy a
      exact ⟨mul_nonneg this.1 hf.le, mul_lt_mul_of_pos_right this.2 hf⟩
    · intro m hm
      obtain ⟨y, hy, rfl⟩ := List.mem_map.1 hm
      exact mul_pos (hs.masses_pos y hy) hg
    · intro ob hob i hi
      obtain ⟨y, hy, rfl⟩ := List.mem_map.1 hob
      simpa [stretch] using hs.exist y hy i hi
  have hres : resolved minPtcs (objs.map fun ob => (ob.1, ob.2 * f)) =
      (resolved minPtcs objs).map fun ob => (ob.1, ob.2 * f) := by
    unfold resolved
    rw [List.filter_map]
    rfl
  have e1 : (objs.map fun ob => (ob.1, ob.2 * f)).map Prod.fst = objs.map Prod.fst := by simp [Function.comp_def]
  have e2 : (objs.map fun ob => (ob.1, ob.2 * f)).map Prod.snd = objs.map fun ob => ob.2 * f := by simp [Function.comp_def]
  rw [construct_eq c xyz masses box objs minPtcs center hs.lengths hs.objects] at ho
  rw [← e1, ← e2, construct_eq c _ _ (box * f) _ minPtcs center hs'.lengths hs'.objects] at ho'
  have ho := Except.ok.inj ho
  have ho' := Except.ok.inj ho'
  set u := c.inL / mpch c.h with hu
  set w := c.inM / msunh10 c.h with hw
  obtain ⟨parts, hsp, hplen, hpk⟩ := selected u w xyz masses box objs minPtcs hmin hs o
    (by rw [← ho]) (by rw [← ho]) (by rw [← ho]) (by rw [← ho]) sel hsel
  obtain ⟨parts', hsp', hplen', hpk'⟩ := selected u w _ _ (box * f) _ minPtcs hmin hs' o'
    (by rw [← ho']) (by rw [← ho']) (by rw [← ho']) (by rw [← ho']) sel (by rw [hres, List.length_map]; exact hsel)
  have hor : o.r200 = (resolved minPtcs objs).map fun o => o.2 * u := by rw [← ho]
  have hor' : o'.r200 = o.r200.map (· * f) := by
    rw [hor, ← ho']
    show (resolved minPtcs (objs.map fun ob => (ob.1, ob.2 * f))).map (fun o => o.2 * u) = _
    rw [hres, List.map_map, List.map_map]
    apply List.map_congr_left
    intro ob _
    exact mul_right_comm _ _ _
  obtain ⟨r200, hr⟩ : ∃ r, fancy o.r200 (sel.map Int.toNat) = some r := by
    apply mapM_exists
    intro i hi
    obtain ⟨z, hz, rfl⟩ := List.mem_map.1 hi
    have := hsel.2.2 z hz
    refine ⟨_, List.getElem?_eq_getElem ?_⟩
    rw [hor, List.length_map]
    omega
  have hrl : r200.length = sel.length := by
    rw [(mapM_some_get _ _ _ hr).1]; simp
  have hr' : fancy o'.r200 (sel.map Int.toNat) = some (r200.map (· * f)) := by
    rw [hor']
    unfold fancy at hr ⊢
    rw [show (fun i => (o.r200.map (· * f))[i]?) = fun i => (o.r200[i]?).map (· * f) from funext fun i => List.getElem?_map ..]
    rw [Verif.Shapes.mapM_map_result, hr]
    rfl
  have hpp : parts' = parts.map fun ps => ps.map (scale f g) := by
    apply List.ext_getElem?
    intro k
    rw [List.getElem?_map]
    by_cases hk : k < sel.length
    · have hz := hsel.2.2 sel[k] (List.getElem_mem hk)
      have hlt : (sel[k]).toNat < (resolved minPtcs objs).length := by omega
      have hget := List.getElem?_eq_getElem hlt
      have h1 := (hpk k _ _ (List.getElem?_eq_getElem hk) hget).1
      have h1' := (hpk' k _ _ (List.getElem?_eq_getElem hk) (by rw [hres, List.getElem?_map, hget]; rfl)).1
      rw [h1, h1', particlesOf_stretch, Option.map_some, List.map_map, List.map_map]
      congr 2
      funext p
      simp only [Function.comp_def, scale_scale]
      rw [mul_comm f, mul_comm g]
    · rw [List.getElem?_eq_none (by omega), List.getElem?_eq_none (by omega)]
      rfl
  refine ⟨parts, r200, hsp, hpp ▸ hsp', hr, hr', by omega, ?_, by rw [← ho], by rw [← ho']⟩
  rw [← ho, ← ho']
  exact mul_right_comm _ _ _

variable (choose : Nat → List Nat) (limit : Nat) (c' : Cfg ℝ)

/-- C136 (partial). Two simulations, the second with all lengths multiplied by `f` and all masses by `g`, are analysed in the same way.  The
local shapes of corresponding objects are similar, or both calls fail in the same way, whatever the schedules of the parallel loops and with
any two eigenvalue routines.  Missing: global shapes (`C133_global_refuted`). -/
theorem C136_shapes_partial (sol sol' : Solver) (hsol : GoodSolver sol) (hsol' : GoodSolver sol') (katz : Katz)
    (out out' : Except ShapeErr (List (List ShapeEntry)))
    (hrun : GetShapeCat c' sol choose limit o katz false sel out)
    (hrun' : GetShapeCat c' sol' choose limit o' katz false sel out') :
    (∃ e, out = .error e ∧ out' = .error e) ∨
    ∃ res res', out = .ok res ∧ out' = .ok res' ∧ List.Forall₂ (List.Forall₂ (SimilarEntry f)) res res' := by
  obtain ⟨parts, r200, h1, h1', h2, h2', h3, h4, h5, h5'⟩ := both_scaled c hc f g hf hg xyz masses box objs minPtcs hmin center hs
    o o' ho ho' sel hsel
  rw [getShapeCat_fn c' sol choose limit o katz false sel parts h1 r200 h2 h3 out hrun,
    getShapeCat_fn c' sol' choose limit o' katz false sel _ h1' _ h2' (by simpa using h3) out' hrun', h4, h5, h5']
  have key : Option.Rel (List.Forall₂ (Option.Rel (List.Forall₂ (SimilarShape f))))
      ((parts.zip r200).mapM (fun pr => (shapeCentre choose limit o.box center pr.1).map fun v =>
        aloneShapes (katz.settings sol o.box) (kindOf false) ⟨pr.1.map fun p => ⟨p.pos, 0, p.mass⟩, v, pr.2⟩))
      (((parts.map fun ps => ps.map (scale f g)).zip (r200.map (· * f))).mapM
        (fun pr => (shapeCentre choose limit (o.box * f) center pr.1).map fun v =>
        aloneShapes (katz.settings sol' (o.box * f)) (kindOf false) ⟨pr.1.map fun p => ⟨p.pos, 0, p.mass⟩, v, pr.2⟩)) := by
    rw [List.zip_map]
    apply Verif.Shapes.mapM_rel₂
    rintro ⟨ps, r⟩ -
    simp only [Prod.map]
    rw [shapeCentre_scale hf hg]
    cases shapeCentre choose limit o.box center ps with
    | none => exact .none
    | some v =>
      refine .some ?_
      have := aloneShapes_zoom hf one_ne_zero hg.ne' sol' (katz.settings sol o.box) hsol hsol' (kindOf false) (.inl rfl)
        ⟨ps.map fun p => ⟨p.pos, 0, p.mass⟩, v, r⟩
      have e : zoomObj f 1 g ⟨ps.map fun p => ⟨p.pos, 0, p.mass⟩, v, r⟩ =
          ⟨(ps.map (scale f g)).map fun p => ⟨p.pos, 0, p.mass⟩, fun a => v a * f, r * f⟩ := by
        unfold zoomObj
        simp only [List.map_map, Function.comp_def, scale, mul_one]
      rw [e] at this
      exact this
  unfold shapesOf
  revert key
  generalize (parts.zip r200).mapM (fun pr => (shapeCentre choose limit o.box center pr.1).map fun v =>
        aloneShapes (katz.settings sol o.box) (kindOf false) ⟨pr.1.map fun p => ⟨p.pos, 0, p.mass⟩, v, pr.2⟩) = A
  generalize ((parts.map fun ps => ps.map (scale f g)).zip (r200.map (· * f))).mapM
        (fun pr => (shapeCentre choose limit (o.box * f) center pr.1).map fun v =>
        aloneShapes (katz.settings sol' (o.box * f)) (kindOf false) ⟨pr.1.map fun p => ⟨p.pos, 0, p.mass⟩, v, pr.2⟩) = B
  intro key
  cases key with
  | none => exact .inl ⟨_, rfl, rfl⟩
  | @some xs xs' hr =>
    dsimp only
    have h6 : Option.Rel (List.Forall₂ (List.Forall₂ (SimilarShape f))) (xs.mapM id) (xs'.mapM id) := by
      clear hrun hrun'
      induction hr with
      | nil => exact .some .nil
      | @cons a a' l l' h _ ih =>
        rw [List.mapM_cons, List.mapM_cons]
        cases h with
        | none => exact .none
        | some h =>
          simp only [id_eq, Option.bind_eq_bind, Option.bind_some]
          revert ih
          generalize l.mapM id = A
          generalize l'.mapM id = B
          intro ih
          cases ih with
          | none => exact .none
          | some ih => exact .some (.cons h ih)
    revert h6
    generalize xs.mapM id = A
    generalize xs'.mapM id = B
    intro h6
    cases h6 with
    | none => exact .inl ⟨_, rfl, rfl⟩
    | some h6 =>
      refine .inr ⟨_, _, rfl, rfl, ?_⟩
      rw [List.forall₂_map_left_iff, List.forall₂_map_right_iff]
      refine h6.imp fun row row' hrow => ?_
      rw [List.forall₂_map_left_iff, List.forall₂_map_right_iff]
      exact hrow.imp fun m m' h => entryOf_similar hf hg _ m m' h

/-- C136 (partial). Density profiles (spherical shells), with `CENTER = 'com'`: densities are multiplied by `g / f³`; exceptions are the
same.  Missing: `CENTER = 'mode'` (`C136_mode_refuted`). -/
theorem C136_profiles_partial (hcom : center = .com) (radii : List ℝ) (hradii : radii ≠ [])
    (out out' : Except Err (List (List ℝ)))
    (hrun : EstDensProfs c' choose limit o radii sel out) (hrun' : EstDensProfs c' choose limit o' radii sel out') :
    out' = out.map fun rows => rows.map fun row => row.map (· * (g / f ^ 3)) := by
  obtain ⟨parts, r200, h1, h1', h2, h2', h3, h4, h5, h5'⟩ := both_scaled c hc f g hf hg xyz masses box objs minPtcs hmin center hs
    o o' ho ho' sel hsel
  obtain ⟨edges, hedges⟩ : ∃ e, sphEdges radii = some e := by
    unfold sphEdges
    rw [List.getLast?_eq_some_getLast hradii]
    exact ⟨_, rfl⟩
  subst hcom
  rw [estDensProfs_fn c' choose limit o radii edges hedges sel parts h1 r200 h2 h3 out hrun,
    estDensProfs_fn c' choose limit o' radii edges hedges sel _ h1' _ h2' (by simpa using h3) out' hrun', h4, h5, h5']
  unfold profilesOf
  rw [List.zip_map]
  clear h1 h1' h2 h2' h3 hrun hrun'
  have key : ((parts.zip r200).map (Prod.map (fun ps => ps.map (scale f g)) (· * f))).mapM
      (fun pr => (centreOf choose limit (o.box * f) .com pr.1).map fun v =>
        (estOut c' (aloneProfile (o.box * f) edges ⟨pr.1, v, pr.2⟩)).toOption) =
      ((parts.zip r200).mapM fun pr => (centreOf choose limit o.box .com pr.1).map fun v =>
        (estOut c' (aloneProfile o.box edges ⟨pr.1, v, pr.2⟩)).toOption).map
        (List.map (Option.map (List.map (· * (g / f ^ 3))))) := by
    rw [← Verif.Shapes.mapM_map_result]
    apply mapM_eq_of_map
    rw [List.map_map]
    apply List.map_congr_left
    rintro ⟨ps, r⟩ -
    simp only [Function.comp_def, Prod.map]
    rw [centreOf_scale hf hg]
    cases centreOf choose limit o.box .com ps with
    | none => rfl
    | some v =>
      simp only [Option.map_some, aloneProfile_scale hf hg, estOut, internalLM_eq, Except.toOption, List.map_map, Option.some.injEq]
      apply List.map_congr_left
      intro x _
      simp only [Function.comp_def]
      ring
  rw [key]
  generalize ((parts.zip r200).mapM fun pr => (centreOf choose limit o.box .com pr.1).map fun v =>
        (estOut c' (aloneProfile o.box edges ⟨pr.1, v, pr.2⟩)).toOption) = A
  cases A with
  | none => rfl
  | some xs =>
    simp only [Option.map_some, Except.map]
    have : (xs.map (Option.map (List.map (· * (g / f ^ 3))))).mapM id = (xs.mapM id).map (List.map (List.map (· * (g / f ^ 3)))) := by
      rw [← Verif.Shapes.mapM_map_result]
      apply mapM_eq_of_map
      rw [List.map_map]
      rfl
    rw [this]
    cases xs.mapM id <;> rfl

/-- C136 (partial). The same for kernel-based density profiles. -/
theorem C136_kernel_partial (hcom : center = .com) (radii : List ℝ)
    (out out' : Except KernelErr (List (List ℝ)))
    (hrun : EstDensProfsKernel c' choose limit o radii sel out)
    (hrun' : EstDensProfsKernel c' choose limit o' radii sel out') :
    out' = out.map fun rows => rows.map fun row => row.map (· * (g / f ^ 3)) := by
  obtain ⟨parts, r200, h1, h1', h2, h2', h3, h4, h5, h5'⟩ := both_scaled c hc f g hf hg xyz masses box objs minPtcs hmin center hs
    o o' ho ho' sel hsel
  subst hcom
  rw [estDensProfsKernel_fn c' choose limit o radii sel parts h1 r200 h2 out hrun,
    estDensProfsKernel_fn c' choose limit o' radii sel _ h1' _ h2' out' hrun', h4, h5, h5', List.zip_map]
  have key : ∀ l : List (List (Particle ℝ) × ℝ), kernelOf choose limit (o.box * f) .com radii
      (l.map (Prod.map (fun ps => ps.map (scale f g)) (· * f))) =
      (kernelOf choose limit o.box .com radii l).map (List.map (List.map (· * (g / f ^ 3)))) := by
    intro l
    induction l with
    | nil => rfl
    | cons pr l ih =>
      obtain ⟨ps, r⟩ := pr
      rw [List.map_cons]
      unfold kernelOf
      simp only [Prod.map]
      rw [centreOf_scale hf hg]
      cases centreOf choose limit o.box .com ps with
      | none => rfl
      | some v =>
        simp only [Option.map_some]
        have hz : (∃ md ∈ massDistances (o.box * f) (fun a => v a * f) (ps.map (scale f g)), kernelWidth (r * f) md.2 = 0) ↔
            ∃ md ∈ massDistances o.box v ps, kernelWidth r md.2 = 0 := by
          rw [massDistances_scale hf hg]
          constructor
          · rintro ⟨md, hmd, h0⟩
            obtain ⟨md', hmd', rfl⟩ := List.mem_map.1 hmd
            refine ⟨md', hmd', ?_⟩
            rw [kernelWidth_stretch hf hg] at h0
            exact (mul_eq_zero.1 h0).resolve_right hf.ne'
          · rintro ⟨md, hmd, h0⟩
            refine ⟨_, List.mem_map_of_mem hmd, ?_⟩
            rw [kernelWidth_stretch hf hg, h0, zero_mul]
        by_cases h0 : radii ≠ [] ∧ ∃ md ∈ massDistances o.box v ps, kernelWidth r md.2 = 0
        · rw [if_pos ⟨h0.1, hz.2 h0.2⟩, if_pos h0]
          rfl
        · rw [if_neg (fun h => h0 ⟨h.1, hz.1 h.2⟩), if_neg h0, ih]
          have hrow : (radii.map fun x => densKernel (r * f) (massDistances (o.box * f) (fun a => v a * f) (ps.map (scale f g)))
              (x * (r * f))) = (radii.map fun x => densKernel r (massDistances o.box v ps) (x * r)).map (· * (g / f ^ 3)) := by
            rw [List.map_map]
            apply List.map_congr_left
            intro x _
            simp only [Function.comp_def]
            rw [massDistances_scale hf hg, ← mul_assoc, densKernel_stretch hf hg]
          rw [hrow]
          cases kernelOf choose limit o.box .com radii l <;> rfl
  rw [key]
  cases kernelOf choose limit o.box .com radii (parts.zip r200) with
  | error e => rfl
  | ok rows =>
    simp only [Except.map, Except.bind]
    have : ∀ rows : List (List ℝ), (rows.mapM fun row => (estOut c' row).toOption) =
        some (rows.map fun row => row.map fun p => p * massUnit * (msunh10 c'.h / massUnit / c'.outM) *
          (mpch c'.h / c'.outL) ^ (-3 : Int)) := by
      intro rows
      simp only [estOut, internalLM_eq, Except.toOption]
      induction rows with
      | nil => rfl
      | cons row rows ih => rw [List.mapM_cons, ih]; rfl
    rw [this, this]
    simp only [Option.getD_some, Except.ok.injEq, List.map_map]
    apply List.map_congr_left
    intro row _
    simp only [Function.comp_def, List.map_map]
    apply List.map_congr_left
    intro x _
    ring

/-- C136 (partial). Masses and centres, with `CENTER = 'com'`: masses are multiplied by `g`, centres by `f`. -/
theorem C136_centres_partial (hcom : center = .com) (out out' : Except Err (List (Vec ℝ × ℝ)))
    (hrun : GetMassesCenters c' choose limit o sel out) (hrun' : GetMassesCenters c' choose limit o' sel out') :
    out' = out.map fun rows => rows.map fun x => (fun a => x.1 a * f, x.2 * g) := by
  obtain ⟨parts, r200, h1, h1', h2, h2', h3, h4, h5, h5'⟩ := both_scaled c hc f g hf hg xyz masses box objs minPtcs hmin center hs
    o o' ho ho' sel hsel
  subst hcom
  rw [getMassesCenters_fn c' choose limit o sel parts h1 out hrun,
    getMassesCenters_fn c' choose limit o' sel _ h1' out' hrun', h4, h5, h5']
  unfold massesOf
  have key : ((parts.map fun ps => ps.map (scale f g)).mapM fun ps =>
      (centreOf choose limit (o.box * f) .com ps).map fun v => (v, totalMass ps)) =
      (parts.mapM fun ps => (centreOf choose limit o.box .com ps).map fun v => (v, totalMass ps)).map
        (List.map fun x => (fun a => x.1 a * f, x.2 * g)) := by
    rw [← Verif.Shapes.mapM_map_result]
    apply mapM_eq_of_map
    rw [List.map_map]
    apply List.map_congr_left
    intro ps _
    simp only [Function.comp_def]
    rw [centreOf_scale hf hg, totalMass_scale]
    cases centreOf choose limit o.box .com ps <;> rfl
  rw [key]
  cases (parts.mapM fun ps => (centreOf choose limit o.box .com ps).map fun v => (v, totalMass ps)) with
  | none => rfl
  | some xs =>
    simp only [Option.map_some, Except.map, Except.ok.injEq, List.map_map]
    apply List.map_congr_left
    intro x _
    simp only [Function.comp_def, recentreAxis_scale hf hg, Prod.mk.injEq]
    exact ⟨funext fun a => mul_right_comm _ _ _, mul_right_comm _ _ _⟩

end

/-! ## The mode of an object -/

/-- Positions of the particles of `cornerObject`. -/
noncomputable def cornerXyz : List (Vec ℝ) := cornerObject.map fun p => p.pos

/-- The full property is false with `CENTER = 'mode'`: the search for the mode begins with a radius of 1000 Mpc/h.  The centre of six particles
(units Mpc/h and 10^10 Msun/h, box of 100) is not where the centre of the same particles is in a simulation with lengths 1000 times as large. -/
theorem C136_mode_refuted (h : ℝ) (hh : 0 < h) (choose : Nat → List Nat) (o o' : Obj)
    (ho : construct ⟨mpch h, msunh10 h, 1, h, mpch h, msunh10 h, 1⟩ ⟨cornerXyz, [995, 1, 1, 1, 1, 1],
      .nested [[0, 1, 2, 3, 4, 5]], .array [1], 100, 1, .mode⟩ = .ok o)
    (ho' : construct ⟨mpch h, msunh10 h, 1, h, mpch h, msunh10 h, 1⟩ ⟨stretch 1000 cornerXyz, [995, 1, 1, 1, 1, 1],
      .nested [[0, 1, 2, 3, 4, 5]], .array [1000], 100 * 1000, 1, .mode⟩ = .ok o')
    (out out' : Except Err (List (Vec ℝ × ℝ)))
    (hrun : GetMassesCenters ⟨mpch h, msunh10 h, 1, h, mpch h, msunh10 h, 1⟩ choose 1000 o [0] out)
    (hrun' : GetMassesCenters ⟨mpch h, msunh10 h, 1, h, mpch h, msunh10 h, 1⟩ choose 1000 o' [0] out') :
    out = .ok [(![3 / 999, 3 / 999, 2 / 999], 1000)] ∧ out' = .ok [(![4, 4, 3], 1000)] := by
  have hsens : Sensible cornerXyz [995, 1, 1, 1, 1, 1] 100 [([0, 1, 2, 3, 4, 5], 1)] := by
    refine ⟨rfl, by norm_num, ?_, ?_, by simp, ?_⟩
    · intro x hx a
      simp only [cornerXyz, cornerObject, List.map_cons, List.map_nil, List.mem_cons, List.not_mem_nil, or_false] at hx
      rcases hx with rfl | rfl | rfl | rfl | rfl | rfl <;> fin_cases a <;> norm_num
    · intro m hm
      simp only [List.mem_cons, List.not_mem_nil, or_false] at hm
      rcases hm with rfl | rfl | rfl | rfl | rfl | rfl <;> norm_num
    · intro ob hob i hi
      simp only [List.mem_cons, List.not_mem_nil, or_false] at hob
      subst hob
      simp only [List.mem_cons, List.not_mem_nil, or_false] at hi
      rcases hi with rfl | rfl | rfl | rfl | rfl | rfl <;> simp [cornerXyz, cornerObject]
  have hpos : (⟨mpch h, msunh10 h, 1, h, mpch h, msunh10 h, 1⟩ : Cfg ℝ).Pos :=
    ⟨mpch_pos hh, msunh10_pos hh, one_pos, hh, mpch_pos hh, msunh10_pos hh, one_pos⟩
  have hsel : GoodSelection [0] (resolved 1 [([0, 1, 2, 3, 4, 5], (1 : ℝ))]).length := by
    have : resolved 1 [([0, 1, 2, 3, 4, 5], (1 : ℝ))] = [([0, 1, 2, 3, 4, 5], (1 : ℝ))] := by simp [resolved]
    rw [this]; exact ⟨by simp, by simp, by simp⟩
  have hl := (mpch_pos hh).ne'
  have hw := (msunh10_pos hh).ne'
  have hps : particlesOf cornerXyz [995, 1, 1, 1, 1, 1] [0, 1, 2, 3, 4, 5] = cornerObject := by
    simp [particlesOf, cornerXyz, cornerObject]
  obtain ⟨parts, r200, h1, h1', -, -, -, h4, h5, h5'⟩ := both_scaled _ hpos 1000 1 (by norm_num) one_pos cornerXyz [995, 1, 1, 1, 1, 1] 100
    [([0, 1, 2, 3, 4, 5], 1)] 1 le_rfl .mode hsens o o' ho (by simpa using ho') [0] hsel
  have hp : parts = [cornerObject] ∧ o.box = 100 := by
    have ho2 := Except.ok.inj ((construct_eq _ cornerXyz [995, 1, 1, 1, 1, 1] 100 [([0, 1, 2, 3, 4, 5], 1)] 1 .mode hsens.lengths
      hsens.objects).symm.trans ho)
    obtain ⟨parts2, hsp, hplen, hpk⟩ := selected (mpch h / mpch h) (msunh10 h / msunh10 h) cornerXyz [995, 1, 1, 1, 1, 1] 100
      [([0, 1, 2, 3, 4, 5], 1)] 1 le_rfl hsens o
      (by rw [← ho2]) (by rw [← ho2]) (by rw [← ho2]) (by rw [← ho2]) [0] hsel
    obtain rfl := Except.ok.inj (h1.symm.trans hsp)
    have h2 := (hpk 0 0 ([0, 1, 2, 3, 4, 5], 1) rfl (by simp [resolved])).1
    rw [hps, div_self hl, div_self hw] at h2
    refine ⟨?_, by rw [← ho2]; simp [div_self hl]⟩
    match parts, hplen with
    | [x], _ =>
      simp only [List.getElem?_cons_zero, Option.some.injEq] at h2
      rw [h2]
      congr 1
      conv_rhs => rw [← List.map_id cornerObject]
      exact List.map_congr_left fun p _ => scale_one p
  obtain ⟨rfl, hbox⟩ := hp
  have hc1 : centreOf choose 1000 100 .mode cornerObject = some ![3 / 999, 3 / 999, 2 / 999] := by
    unfold centreOf
    simp only [corner_unwrapped]
    exact corner_mode1000 963
  have hc2 : centreOf choose 1000 (100 * 1000) .mode (cornerObject.map (scale 1000 1)) =
      some fun a => (![4 / 1000, 4 / 1000, 3 / 1000] : Vec ℝ) a * 1000 := by
    have hu := unwrapped_scale (f := 1000) (g := 1) (by norm_num) one_pos choose 100 cornerObject
    have hu2 : unwrapped choose 100 cornerObject = cornerObject := corner_unwrapped _
    rw [hu2] at hu
    unfold unwrapped at hu
    unfold centreOf
    dsimp only
    rw [hu]
    have hm := calcMode_scale (f := 1000) (g := 1) (by norm_num) one_pos 1000 cornerObject 1
    rw [one_mul, corner_modeExtent 999] at hm
    exact hm
  have hM : totalMass cornerObject = 1000 := by norm_num [totalMass, cornerObject]
  rw [getMassesCenters_fn _ choose 1000 o [0] _ h1 out hrun, getMassesCenters_fn _ choose 1000 o' [0] _ h1' out' hrun', h4, h5, h5', hbox]
  unfold massesOf
  simp only [List.map_cons, List.map_nil, List.mapM_cons, List.mapM_nil, hc1, hc2, Option.map_some, Option.bind_eq_bind,
    Option.bind_some, Option.pure_def, totalMass_scale, hM, div_self hl, div_self hw, mul_one]
  constructor
  · congr 3
    funext a
    fin_cases a <;> norm_num [recentreAxis]
  · congr 3
    funext a
    fin_cases a <;> norm_num [recentreAxis]

/-- Both objects of `C136_mode_refuted` can be made, and both calls have an outcome. -/
example (h : ℝ) (choose : Nat → List Nat) : ∃ o o',
    construct ⟨mpch h, msunh10 h, 1, h, mpch h, msunh10 h, 1⟩ ⟨cornerXyz, [995, 1, 1, 1, 1, 1],
      .nested [[0, 1, 2, 3, 4, 5]], .array [1], 100, 1, .mode⟩ = .ok o ∧
    construct ⟨mpch h, msunh10 h, 1, h, mpch h, msunh10 h, 1⟩ ⟨stretch 1000 cornerXyz, [995, 1, 1, 1, 1, 1],
      .nested [[0, 1, 2, 3, 4, 5]], .array [1000], 100 * 1000, 1, .mode⟩ = .ok o' ∧
    (∃ out, GetMassesCenters ⟨mpch h, msunh10 h, 1, h, mpch h, msunh10 h, 1⟩ choose 1000 o [0] out) ∧
    ∃ out', GetMassesCenters ⟨mpch h, msunh10 h, 1, h, mpch h, msunh10 h, 1⟩ choose 1000 o' [0] out' := by
  have h1 := construct_eq ⟨mpch h, msunh10 h, 1, h, mpch h, msunh10 h, 1⟩ cornerXyz [995, 1, 1, 1, 1, 1] 100
    [([0, 1, 2, 3, 4, 5], 1)] 1 .mode rfl (by simp)
  have h2 := construct_eq ⟨mpch h, msunh10 h, 1, h, mpch h, msunh10 h, 1⟩ (stretch 1000 cornerXyz) [995, 1, 1, 1, 1, 1] (100 * 1000)
    [([0, 1, 2, 3, 4, 5], 1000)] 1 .mode rfl (by simp)
  exact ⟨_, _, h1, h2, C95_outcome_exists _ _ _ _ _, C95_outcome_exists _ _ _ _ _⟩

/-- A concrete case: the cross of `C106_cross`, twice as large and three times as heavy. -/
example (h : ℝ) (hh : 0 < h) (sol : Solver) (hsol : GoodSolver sol) (choose : Nat → List Nat)
    (hch : ∀ n, 0 < n → ∃ j ∈ choose n, j < n) (limit : Nat) (o o' : Obj)
    (ho : construct ⟨mpch h, msunh10 h, 1, h, mpch h, msunh10 h, 1⟩ ⟨crossXyz, [1, 1, 1, 1, 1, 1],
      .nested [[0, 1, 2, 3, 4, 5]], .array [100], 20, 6, .com⟩ = .ok o)
    (ho' : construct ⟨mpch h, msunh10 h, 1, h, mpch h, msunh10 h, 1⟩ ⟨stretch 2 crossXyz, [1 * 3, 1 * 3, 1 * 3, 1 * 3, 1 * 3, 1 * 3],
      .nested [[0, 1, 2, 3, 4, 5]], .array [100 * 2], 20 * 2, 6, .com⟩ = .ok o')
    (out out' : Except ShapeErr (List (List ShapeEntry)))
    (hrun : GetShapeCat ⟨mpch h, msunh10 h, 1, h, mpch h, msunh10 h, 1⟩ sol choose limit o
      ⟨[1], 1 / 10, 100, 6, false, false⟩ false [0] out)
    (hrun' : GetShapeCat ⟨mpch h, msunh10 h, 1, h, mpch h, msunh10 h, 1⟩ sol choose limit o'
      ⟨[1], 1 / 10, 100, 6, false, false⟩ false [0] out') :
    ∃ e' : ShapeEntry, out' = .ok [[e']] ∧ e'.d = some 200 ∧ e'.q = some (2 / 3) ∧ e'.s = some (1 / 3) ∧ e'.major 1 = none := by
  have hs : Sensible crossXyz [1, 1, 1, 1, 1, 1] 20 [([0, 1, 2, 3, 4, 5], 100)] := by
    refine ⟨rfl, by norm_num, ?_, ?_, by simp, ?_⟩
    · intro x hx a
      simp only [crossXyz, List.mem_cons, List.not_mem_nil, or_false] at hx
      rcases hx with rfl | rfl | rfl | rfl | rfl | rfl <;> fin_cases a <;> norm_num
    · intro m hm
      simp only [List.mem_cons, List.not_mem_nil, or_false, or_self] at hm
      rw [hm]; norm_num
    · intro o ho i hi
      simp only [List.mem_singleton] at ho
      subst ho
      simp only [List.mem_cons, List.not_mem_nil, or_false] at hi
      rcases hi with rfl | rfl | rfl | rfl | rfl | rfl <;> simp [crossXyz]
  have hpos : (⟨mpch h, msunh10 h, 1, h, mpch h, msunh10 h, 1⟩ : Cfg ℝ).Pos :=
    ⟨mpch_pos hh, msunh10_pos hh, one_pos, hh, mpch_pos hh, msunh10_pos hh, one_pos⟩
  obtain ⟨e, rfl, h1, h2, h3, h4, h5⟩ := C106_cross 20 le_rfl h hh sol hsol choose hch limit o ho out hrun
  have hsel : GoodSelection [0] (resolved 6 [([0, 1, 2, 3, 4, 5], (100 : ℝ))]).length := by
    have : resolved 6 [([0, 1, 2, 3, 4, 5], (100 : ℝ))] = [([0, 1, 2, 3, 4, 5], (100 : ℝ))] := by simp [resolved]
    rw [this]; exact ⟨by simp, by simp, by simp⟩
  obtain ⟨e, he, -⟩ | ⟨res, res', hr, hr', hrel⟩ := C136_shapes_partial _ hpos 2 3 (by norm_num) (by norm_num) crossXyz
    [1, 1, 1, 1, 1, 1] 20 [([0, 1, 2, 3, 4, 5], 100)] 6 (by norm_num) .com hs o o' ho ho' [0] hsel choose limit _ sol sol hsol hsol _ _ _
    hrun hrun'
  · cases he
  obtain rfl := Except.ok.inj hr
  rw [List.forall₂_cons_left_iff] at hrel
  obtain ⟨row, rest, hrow, hrest, rfl⟩ := hrel
  rw [List.forall₂_nil_left_iff] at hrest
  rw [List.forall₂_cons_left_iff] at hrow
  obtain ⟨e', rest', he', hrest', rfl⟩ := hrow
  rw [List.forall₂_nil_left_iff] at hrest'
  subst hrest hrest'
  refine ⟨e', hr', by rw [he'.d, h2]; norm_num, by rw [he'.q, h3], by rw [he'.s, h4], ?_⟩
  obtain ⟨a | a, -⟩ := he'.axes _ _ h3 h4 (by norm_num) (by norm_num) (by norm_num)
  · rw [a, h5]
  · rw [a]
    show (e.major 1).map _ = none
    rw [h5]
    rfl

end Verif.Api
