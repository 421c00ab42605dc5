import Verif.Api.Open
import Verif.Shapes.Sampling

/-!
# Distribution of mass and number of particles (C152)
-/

set_option linter.unusedSectionVars false

namespace Verif.Api

open Verif.Units Verif.Catalogue Verif.Periodic Verif.Binning
open Verif.Shapes (Solver GoodSolver Settings Pt Morph aloneShapes positionPts pureLocal pureGlobal pureLoop pureOne pureStart pureStep
  pureRun SameMasses massAtPlace sum_of_masses massAtPlace_pos localSpread)

/-! ## Specification -/

open Classical in
/-- Total mass of the particles at the position `x`. -/
noncomputable def massAt (ps : List (Particle ℝ)) (x : Vec ℝ) : ℝ := (ps.map fun p => if p.pos = x then p.mass else 0).sum

/-- Two catalogues, possibly with different numbers of particles: the objects correspond one to one, have at every position the same total mass, have
the same radius, and reach the minimum number of particles (`MIN_NUMBER_PTCS`, possibly different) in both catalogues or in none. -/
def SameDistribution (xyz : List (Vec ℝ)) (masses : List ℝ) (objs : List (List Nat × ℝ)) (minPtcs : Int)
    (xyz' : List (Vec ℝ)) (masses' : List ℝ) (objs' : List (List Nat × ℝ)) (minPtcs' : Int) : Prop :=
  List.Forall₂ (fun o o' : List Nat × ℝ =>
    (∀ x, massAt (particlesOf xyz' masses' o'.1) x = massAt (particlesOf xyz masses o.1) x) ∧ o'.2 = o.2 ∧
    (minPtcs' ≤ (o'.1.length : Int) ↔ minPtcs ≤ (o.1.length : Int))) objs objs'

/-- In every region, the one object has fewer particles than `n` if and only if the other has fewer than `n'`. -/
def SameCounts (n n' : Int) (ps ps' : List (Particle ℝ)) : Prop :=
  ∀ X : Vec ℝ → Bool, ((ps'.filter fun p => X p.pos).length : Int) < n' ↔ ((ps.filter fun p => X p.pos).length : Int) < n

/-- The settings of a shape determination with another `IT_MIN`. -/
def Katz.withMin (k : Katz) (n : Int) : Katz := ⟨k.radii, k.tol, k.wall, n, k.reduced, k.shellBased⟩

/-- Every particle split into `k` particles at the same position with equal masses. -/
def splitXyz (k : Nat) (xyz : List (Vec ℝ)) : List (Vec ℝ) := xyz.flatMap fun x => List.replicate k x

/-- The masses of the pieces. -/
noncomputable def splitMasses (k : Nat) (masses : List ℝ) : List ℝ := masses.flatMap fun m => List.replicate k (m / k)

/-- The numbers of the pieces. -/
def splitObjs (k : Nat) (objs : List (List Nat × ℝ)) : List (List Nat × ℝ) :=
  objs.map fun o => (o.1.flatMap fun i => (List.range k).map (i * k + ·), o.2)

/-! ## One object -/

/-- Particles as the shape determination sees them. -/
def toPts (ps : List (Particle ℝ)) : List Pt := ps.map fun p => ⟨p.pos, p.pos, p.mass⟩

theorem massAtPlace_toPts (ps ps' : List (Particle ℝ)) (h : ∀ x, massAt ps' x = massAt ps x) (k : Shapes.Place) :
    massAtPlace (toPts ps') k = massAtPlace (toPts ps) k := by
  classical
  have e : ∀ ps : List (Particle ℝ), massAtPlace (toPts ps) k = if k.1 = k.2 then massAt ps k.1 else 0 := by
    intro ps
    unfold massAtPlace massAt toPts
    rw [List.map_map]
    split
    · next hk =>
      congr 1
      apply List.map_congr_left
      intro p _
      simp only [Function.comp, Pt.place]
      apply if_congr _ rfl rfl
      rw [Prod.ext_iff]
      simp only
      exact ⟨fun h => h.1, fun h => ⟨h, hk ▸ h⟩⟩
    · next hk =>
      apply List.sum_eq_zero
      intro x hx
      obtain ⟨p, _, rfl⟩ := List.mem_map.1 hx
      refine if_neg fun h' => ?_
      have h1 : p.pos = k.1 := congrArg Prod.fst h'
      have h2 : p.pos = k.2 := congrArg Prod.snd h'
      exact hk (h1.symm.trans h2)
  rw [e, e, h]

/-- Two objects with the same distribution of mass, which cross no face of the box. -/
structure Resampled (L : ℝ) (ps ps' : List (Particle ℝ)) : Prop where
  mass : ∀ x, massAt ps' x = massAt ps x
  pos : ∀ p ∈ ps, 0 < p.mass
  pos' : ∀ p ∈ ps', 0 < p.mass
  nonempty : ps ≠ []
  room : RoomFor L ps

section
variable {L : ℝ} {ps ps' : List (Particle ℝ)} (h : Resampled L ps ps')
include h

theorem Resampled.sum (φ : Vec ℝ → ℝ) : (ps'.map fun p => φ p.pos * p.mass).sum = (ps.map fun p => φ p.pos * p.mass).sum := by
  have := sum_of_masses (toPts ps) (toPts ps') (massAtPlace_toPts ps ps' h.mass) fun k => φ k.1
  simpa [toPts, Pt.place, Function.comp_def] using this

theorem Resampled.places (x : Vec ℝ) : x ∈ ps'.map (fun p => p.pos) ↔ x ∈ ps.map fun p => p.pos := by
  have e : ∀ ps : List (Particle ℝ), (x ∈ ps.map fun p => p.pos) ↔ (x, x) ∈ (toPts ps).map Pt.place := by
    intro ps
    unfold toPts Pt.place
    simp
  have hp : ∀ p ∈ toPts ps, 0 < p.m := by
    intro p hp
    obtain ⟨q, hq, rfl⟩ := List.mem_map.1 hp
    exact h.pos q hq
  have hp' : ∀ p ∈ toPts ps', 0 < p.m := by
    intro p hp
    obtain ⟨q, hq, rfl⟩ := List.mem_map.1 hp
    exact h.pos' q hq
  rw [e, e, massAtPlace_pos _ hp, massAtPlace_pos _ hp', massAtPlace_toPts ps ps' h.mass]

theorem Resampled.all (Q : Vec ℝ → Prop) : (∀ p ∈ ps', Q p.pos) ↔ ∀ p ∈ ps, Q p.pos := by
  have e : ∀ ps : List (Particle ℝ), (∀ p ∈ ps, Q p.pos) ↔ ∀ x ∈ ps.map (fun p => p.pos), Q x := by
    intro ps
    simp
  rw [e, e]
  simp only [h.places]

theorem Resampled.nonempty' : ps' ≠ [] := by
  intro h0
  obtain ⟨p, hp⟩ := List.exists_mem_of_ne_nil _ h.nonempty
  have := (h.places p.pos).2 (List.mem_map_of_mem (f := fun p : Particle ℝ => p.pos) hp)
  rw [h0] at this
  simp at this

theorem Resampled.room' : RoomFor L ps' := by
  rcases h.room with h0 | ⟨hL, hn⟩
  · exact .inl h0
  · refine .inr ⟨hL, ?_⟩
    have h1 : ∀ p ∈ ps', ∀ q ∈ ps, ∀ a, |p.pos a - q.pos a| ≤ L / 2 :=
      (h.all fun x => ∀ q ∈ ps, ∀ a, |x a - q.pos a| ≤ L / 2).2 hn
    intro p hp
    exact (h.all fun y => ∀ a, |p.pos a - y a| ≤ L / 2).2 (h1 p hp)

theorem Resampled.total : totalMass ps' = totalMass ps := by
  have := h.sum fun _ => 1
  simpa [totalMass] using this

theorem Resampled.mean : weightedMean ps' = weightedMean ps := by
  funext a
  unfold weightedMean
  have e : ∀ ps : List (Particle ℝ), (ps.map fun p => p.mass * p.pos a) = ps.map fun p => p.pos a * p.mass := by
    intro ps
    simp only [mul_comm]
  rw [e, e, h.sum fun x => x a, h.total]

section
variable (choose choose' : Nat → List Nat) (hch : ∀ n, 0 < n → ∃ j ∈ choose n, j < n)
  (hch' : ∀ n, 0 < n → ∃ j ∈ choose' n, j < n) (limit limit' : Nat)
include hch hch'

theorem Resampled.centres : centreOf choose' limit' L .com ps' = some (weightedMean ps) ∧
    centreOf choose limit L .com ps = some (weightedMean ps) ∧
    shapeCentre choose' limit' L .com ps' = some (weightedMean ps) ∧ shapeCentre choose limit L .com ps = some (weightedMean ps) := by
  have h1 := unwrapped_room choose L ps (hch _ (List.length_pos_iff.2 h.nonempty)) h.room
  have h2 := unwrapped_room choose' L ps' (hch' _ (List.length_pos_iff.2 h.nonempty')) h.room'
  have e1 := calcCoM_eq (choose ps.length) ps (totalMass_pos ps h.nonempty h.pos).ne'
  have e2 := calcCoM_eq (choose' ps'.length) ps' (totalMass_pos ps' h.nonempty' h.pos').ne'
  rw [h.mean] at e2
  unfold unwrapped at h1 h2
  unfold centreOf shapeCentre
  dsimp only
  rw [h1, h2]
  exact ⟨congrArg some e2, congrArg some e1, congrArg some e2, congrArg some e1⟩

end

theorem Resampled.profile (edges : List ℝ) (v : Vec ℝ) (r : ℝ) : aloneProfile L edges ⟨ps', v, r⟩ = aloneProfile L edges ⟨ps, v, r⟩ := by
  unfold aloneProfile
  simp only
  rw [cy_room L ps h.room, cy_room L ps' h.room', densProfSph_eq _ _ _ _ _ (by simp), densProfSph_eq _ _ _ _ _ (by simp)]
  apply List.map_congr_left
  intro e _
  have key : ∀ (ps : List (Particle ℝ)) (V : ℝ), ((ps.filter (qSph v r e.1 e.2)).map fun p => p.mass / V).sum =
      (ps.map fun p => (if qSph v r e.1 e.2 ⟨p.pos, 0⟩ then 1 / V else 0) * p.mass).sum := by
    intro ps V
    induction ps with
    | nil => rfl
    | cons p ps ih =>
      rw [List.filter_cons, List.map_cons, List.sum_cons, ← ih]
      have : qSph v r e.1 e.2 ⟨p.pos, 0⟩ = qSph v r e.1 e.2 p := rfl
      rw [this]
      split
      · rw [List.map_cons, List.sum_cons]; ring
      · ring
  rw [key, key]
  exact h.sum fun x => if qSph v r e.1 e.2 ⟨x, 0⟩ then 1 / _ else 0

theorem Resampled.kernel (v : Vec ℝ) (r200 r : ℝ) :
    densKernel r200 (massDistances L v ps') r = densKernel r200 (massDistances L v ps) r := by
  unfold densKernel massDistances
  rw [cy_room L ps h.room, cy_room L ps' h.room', foldl_add_eq, foldl_add_eq, List.map_map, List.map_map]
  have := h.sum fun x => kTilde r (radius v ⟨x, 0⟩) (kernelWidth r200 (radius v ⟨x, 0⟩)) / kernelWidth r200 (radius v ⟨x, 0⟩) ^ 3
  have e : ∀ p : Particle ℝ, p.mass * kTilde r (radius v p) (kernelWidth r200 (radius v p)) / kernelWidth r200 (radius v p) ^ 3 =
      kTilde r (radius v ⟨p.pos, 0⟩) (kernelWidth r200 (radius v ⟨p.pos, 0⟩)) / kernelWidth r200 (radius v ⟨p.pos, 0⟩) ^ 3 * p.mass := by
    intro p
    have : radius v ⟨p.pos, 0⟩ = radius v p := rfl
    rw [this]
    ring
  simp only [Function.comp_def, e]
  rw [this]

theorem Resampled.width (v : Vec ℝ) (r200 : ℝ) : (∃ md ∈ massDistances L v ps', kernelWidth r200 md.2 = 0) ↔
    ∃ md ∈ massDistances L v ps, kernelWidth r200 md.2 = 0 := by
  unfold massDistances
  rw [cy_room L ps h.room, cy_room L ps' h.room']
  have := h.all fun x => ¬ kernelWidth r200 (radius v ⟨x, 0⟩) = 0
  rw [← not_iff_not]
  push Not
  simp only [List.forall_mem_map]
  exact this

theorem Resampled.shapes (katz : Katz) (n' : Int) (sol : Solver) (whole : Bool) (hcount : SameCounts katz.itMin n' ps ps') (v : Vec ℝ) (r : ℝ) :
    aloneShapes ((katz.withMin n').settings sol L) (kindOf whole) ⟨ps'.map fun p => ⟨p.pos, 0, p.mass⟩, v, r⟩ =
      aloneShapes (katz.settings sol L) (kindOf whole) ⟨ps.map fun p => ⟨p.pos, 0, p.mass⟩, v, r⟩ := by
  have hP := positionPts_room (katz.settings sol L) ps v r h.room
  have hP' := positionPts_room ((katz.withMin n').settings sol L) ps' v r h.room'
  have hspread : localSpread (toPts ps') = 0 ↔ localSpread (toPts ps) = 0 := by
    rw [Shapes.localSpread_zero_iff, Shapes.localSpread_zero_iff]
    unfold toPts
    simp only [List.forall_mem_map]
    have h1 := h.all fun x => ∀ q ∈ ps, x = q.pos
    constructor
    · intro hall
      exact fun p hp q hq => ((h.all fun x => ∀ y ∈ ps', x = y.pos).1 hall p hp |> fun h2 => (h.all fun y => p.pos = y).1 h2 q hq)
    · intro hall
      exact fun p hp => (h.all fun y => p.pos = y).2 (h1.2 hall p hp)
  have hone : ∀ (d : ℝ) (δ : Option ℝ) (m : Morph),
      pureOne (((katz.withMin n').settings sol L).config (toPts ps') v v d δ) m =
      pureOne ((katz.settings sol L).config (toPts ps) v v d δ) m := by
    intro d δ m
    have hsame : SameMasses ((katz.settings sol L).config (toPts ps) v v d δ) (((katz.withMin n').settings sol L).config (toPts ps') v v d δ) := by
      refine ⟨massAtPlace_toPts ps ps' h.mass, ?_, ?_, ?_, rfl, rfl, rfl, rfl, rfl, rfl, rfl, rfl⟩
      · intro p hp
        obtain ⟨q, hq, rfl⟩ := List.mem_map.1 hp
        exact h.pos q hq
      · intro p hp
        obtain ⟨q, hq, rfl⟩ := List.mem_map.1 hp
        exact h.pos' q hq
      · intro P
        have := hcount fun x => P (x, x)
        have e : ∀ ps : List (Particle ℝ), ((toPts ps).filter fun p => P p.place).length = (ps.filter fun p => P (p.pos, p.pos)).length := by
          intro ps
          unfold toPts
          rw [List.filter_map, List.length_map]
          rfl
        show (((toPts ps').filter fun p => P p.place).length : Int) < n' ↔ (((toPts ps).filter fun p => P p.place).length : Int) < katz.itMin
        rw [e, e]
        exact this
    unfold pureOne
    rw [hsame.run]
    rfl
  change positionPts _ _ = toPts ps at hP
  change positionPts _ _ = toPts ps' at hP'
  unfold kindOf
  cases whole with
  | true =>
    simp only [if_true]
    unfold aloneShapes
    simp only
    rw [hP, hP']
    unfold pureGlobal pureLoop
    simp only [hspread, hone]
    rfl
  | false =>
    simp only [Bool.false_eq_true, if_false]
    unfold aloneShapes
    simp only
    rw [hP, hP']
    unfold pureLocal pureLoop
    simp only [hspread, hone]
    rfl

end

/-! ## All selected objects -/

theorem massAt_scale (f g : ℝ) (hf : f ≠ 0) (ps : List (Particle ℝ)) (x : Vec ℝ) :
    massAt (ps.map (scale f g)) x = massAt ps (fun a => x a / f) * g := by
  classical
  unfold massAt
  rw [List.map_map, ← List.sum_map_mul_right]
  congr 1
  apply List.map_congr_left
  intro p _
  simp only [Function.comp]
  have : (scale f g p).pos = x ↔ p.pos = fun a => x a / f := by
    constructor
    · rintro rfl
      funext a
      simp only [scale]
      field_simp
    · intro h
      simp only [scale]
      rw [h]
      funext a
      field_simp
  by_cases h : p.pos = fun a => x a / f
  · rw [if_pos h, if_pos (this.2 h)]; rfl
  · rw [if_neg h, if_neg fun h' => h (this.1 h'), zero_mul]

theorem SameCounts.scale {n n' : Int} {ps ps' : List (Particle ℝ)} (h : SameCounts n n' ps ps') (f g : ℝ) :
    SameCounts n n' (ps.map (scale f g)) (ps'.map (scale f g)) := by
  intro X
  rw [List.filter_map, List.filter_map, List.length_map, List.length_map]
  exact h fun x => X fun a => x a * f

theorem resolved_distribution {xyz xyz' : List (Vec ℝ)} {masses masses' : List ℝ} {objs objs' : List (List Nat × ℝ)} {minPtcs minPtcs' : Int}
    (h : SameDistribution xyz masses objs minPtcs xyz' masses' objs' minPtcs') :
    SameDistribution xyz masses (resolved minPtcs objs) minPtcs xyz' masses' (resolved minPtcs' objs') minPtcs' := by
  unfold SameDistribution resolved at *
  induction h with
  | nil => exact .nil
  | @cons o o' l l' h _ ih =>
    have hl : decide (minPtcs' ≤ (o'.1.length : Int)) = decide (minPtcs ≤ (o.1.length : Int)) := decide_eq_decide.2 h.2.2
    simp only [List.filter_cons, hl]
    split
    · exact .cons h ih
    · exact ih

theorem map_both {α β : Type} {A B : Option α} {v : α} (f g : α → β) (h1 : A = some v) (h2 : B = some v) (h : f v = g v) : A.map f = B.map g := by
  rw [h1, h2, Option.map_some, Option.map_some, h]

theorem profilesOf_resampled (c : Cfg ℝ) (choose choose' : Nat → List Nat) (hch : ∀ n, 0 < n → ∃ j ∈ choose n, j < n)
    (hch' : ∀ n, 0 < n → ∃ j ∈ choose' n, j < n) (limit : Nat) (L : ℝ) (edges : List ℝ) (l l' : List (List (Particle ℝ) × ℝ))
    (h6 : List.Forall₂ (fun pr pr' => pr'.2 = pr.2 ∧ Resampled L pr.1 pr'.1) l l') :
    profilesOf c choose' limit L .com edges l' = profilesOf c choose limit L .com edges l := by
  have key : l'.map (fun pr => (centreOf choose' limit L .com pr.1).map fun v => (estOut c (aloneProfile L edges ⟨pr.1, v, pr.2⟩)).toOption) =
      l.map fun pr => (centreOf choose limit L .com pr.1).map fun v => (estOut c (aloneProfile L edges ⟨pr.1, v, pr.2⟩)).toOption := by
    induction h6 with
    | nil => rw [List.map_nil, List.map_nil]
    | @cons pr pr' _ _ h _ ih =>
      rw [List.map_cons, List.map_cons, ih]
      congr 1
      obtain ⟨g1, g2, -, -⟩ := h.2.centres choose choose' hch hch' limit limit
      refine map_both _ _ g1 g2 ?_
      rw [h.1, h.2.profile]
  unfold profilesOf
  rw [mapM_eq_of_map _ _ _ _ key]

theorem shapesOf_resampled (c : Cfg ℝ) (sol : Solver) (choose choose' : Nat → List Nat) (hch : ∀ n, 0 < n → ∃ j ∈ choose n, j < n)
    (hch' : ∀ n, 0 < n → ∃ j ∈ choose' n, j < n) (limit : Nat) (L : ℝ) (katz : Katz) (n' : Int) (whole : Bool)
    (l l' : List (List (Particle ℝ) × ℝ))
    (h6 : List.Forall₂ (fun pr pr' => pr'.2 = pr.2 ∧ Resampled L pr.1 pr'.1 ∧ SameCounts katz.itMin n' pr.1 pr'.1) l l') :
    shapesOf c sol choose' limit L .com (katz.withMin n') whole l' = shapesOf c sol choose limit L .com katz whole l := by
  have key : l'.map (fun pr => (shapeCentre choose' limit L .com pr.1).map fun v =>
        aloneShapes ((katz.withMin n').settings sol L) (kindOf whole) ⟨pr.1.map fun p => ⟨p.pos, 0, p.mass⟩, v, pr.2⟩) =
      l.map fun pr => (shapeCentre choose limit L .com pr.1).map fun v =>
        aloneShapes (katz.settings sol L) (kindOf whole) ⟨pr.1.map fun p => ⟨p.pos, 0, p.mass⟩, v, pr.2⟩ := by
    induction h6 with
    | nil => rw [List.map_nil, List.map_nil]
    | @cons pr pr' _ _ h _ ih =>
      rw [List.map_cons, List.map_cons, ih]
      congr 1
      obtain ⟨-, -, g1, g2⟩ := h.2.1.centres choose choose' hch hch' limit limit
      refine map_both _ _ g1 g2 ?_
      rw [h.1]
      exact h.2.1.shapes katz n' sol whole h.2.2 _ _
  unfold shapesOf
  rw [mapM_eq_of_map _ _ _ _ key]

section
variable (c : Cfg ℝ) (hc : c.Pos) (xyz xyz' : List (Vec ℝ)) (masses masses' : List ℝ) (box : ℝ) (objs objs' : List (List Nat × ℝ))
    (minPtcs minPtcs' : Int) (hmin : 1 ≤ minPtcs) (hmin' : 1 ≤ minPtcs')
    (hs : PointCloud xyz masses objs) (hs' : PointCloud xyz' masses' objs')
    (hd : SameDistribution xyz masses objs minPtcs xyz' masses' objs' minPtcs') (o o' : Obj)
    (ho : construct c ⟨xyz, masses, .nested (objs.map Prod.fst), .array (objs.map Prod.snd), box, minPtcs, .com⟩ = .ok o)
    (ho' : construct c ⟨xyz', masses', .nested (objs'.map Prod.fst), .array (objs'.map Prod.snd), box, minPtcs', .com⟩ = .ok o')
    (sel : List Int) (hsel : GoodSelection sel (resolved minPtcs objs).length)
    (hroom : ∀ z ∈ sel, ∀ obj, (resolved minPtcs objs)[z.toNat]? = some obj → RoomFor box (particlesOf xyz masses obj.1))
include hc hmin hmin' hs hs' hd ho ho' hsel hroom

/-- Both calls, object by object. -/
theorem both_counted (n n' : Int)
    (hcount : ∀ z ∈ sel, ∀ obj obj', (resolved minPtcs objs)[z.toNat]? = some obj → (resolved minPtcs' objs')[z.toNat]? = some obj' →
      SameCounts n n' (particlesOf xyz masses obj.1) (particlesOf xyz' masses' obj'.1)) : ∃ parts parts' r200, selectParticles o sel = .ok parts ∧ selectParticles o' sel = .ok parts' ∧
    fancy o.r200 (sel.map Int.toNat) = some r200 ∧ fancy o'.r200 (sel.map Int.toNat) = some r200 ∧
    r200.length = parts.length ∧ r200.length = parts'.length ∧ o.center = .com ∧ o'.center = .com ∧ o'.box = o.box ∧
    List.Forall₂ (fun pr pr' => pr'.2 = pr.2 ∧ Resampled o.box pr.1 pr'.1 ∧ SameCounts n n' pr.1 pr'.1) (parts.zip r200) (parts'.zip r200) := by
  have hres := resolved_distribution hd
  have hlen : (resolved minPtcs' objs').length = (resolved minPtcs objs).length := hres.length_eq.symm
  obtain ⟨hb, hcen, parts, r200, h1, h2, h3, h4, h5⟩ := prepared_of c xyz masses box objs minPtcs hmin .com hs.lengths hs.objects hs.exist
    o ho sel hsel
  obtain ⟨hb', hcen', parts', r200', h1', h2', h3', h4', h5'⟩ := prepared_of c xyz' masses' box objs' minPtcs' hmin' .com hs'.lengths
    hs'.objects hs'.exist o' ho' sel (by rw [hlen]; exact hsel)
  have hr : r200' = r200 := by
    have e : o'.r200 = o.r200 := by
      rw [construct_eq c xyz masses box objs minPtcs .com hs.lengths hs.objects] at ho
      rw [construct_eq c xyz' masses' box objs' minPtcs' .com hs'.lengths hs'.objects] at ho'
      rw [← Except.ok.inj ho, ← Except.ok.inj ho']
      show (resolved minPtcs' objs').map (fun o => o.2 * (c.inL / mpch c.h)) = (resolved minPtcs objs).map fun o => o.2 * (c.inL / mpch c.h)
      unfold SameDistribution at hres
      generalize resolved minPtcs' objs' = l' at hres
      generalize resolved minPtcs objs = l at hres
      clear h5 h5' hsel hroom hlen
      induction hres with
      | nil => rfl
      | cons h _ ih => rw [List.map_cons, List.map_cons, ih, h.2.1]
    rw [e, h2] at h2'
    exact (Option.some.inj h2').symm
  subst hr
  have hfp : 0 < c.inL / mpch c.h := div_pos hc.inL (mpch_pos hc.h)
  have hgp : 0 < c.inM / msunh10 c.h := div_pos hc.inM (msunh10_pos hc.h)
  refine ⟨parts, parts', r200', h1, h1', h2, h2', h3, h3', hcen, hcen', hb'.trans hb.symm, ?_⟩
  rw [List.forall₂_iff_get]
  refine ⟨by simp only [List.length_zip]; omega, ?_⟩
  intro k hk hk'
  have hks : k < sel.length := by simp only [List.length_zip] at hk; omega
  have hz := hsel.2.2 sel[k] (List.getElem_mem hks)
  have hlt : (sel[k]).toNat < (resolved minPtcs objs).length := by omega
  have hlt' : (sel[k]).toNat < (resolved minPtcs' objs').length := by omega
  have hget := List.getElem?_eq_getElem hlt
  have hget' := List.getElem?_eq_getElem hlt'
  have e1 := h5 k _ _ (List.getElem?_eq_getElem hks) hget
  have e1' := h5' k _ _ (List.getElem?_eq_getElem hks) hget'
  have hR := hroom _ (List.getElem_mem hks) _ hget
  have hC := hcount _ (List.getElem_mem hks) _ _ hget hget'
  have hD := (List.forall₂_iff_get.1 hres).2 _ hlt hlt'
  have hmem : (resolved minPtcs objs)[(sel[k]).toNat] ∈ resolved minPtcs objs := List.getElem_mem hlt
  simp only [List.get_eq_getElem] at hD
  generalize (resolved minPtcs objs)[(sel[k]).toNat] = obj at *
  generalize (resolved minPtcs' objs')[(sel[k]).toNat] = obj' at *
  have e2 : (parts.zip r200').get ⟨k, hk⟩ = _ := (List.getElem?_eq_some_iff.1 e1).2
  have e2' : (parts'.zip r200').get ⟨k, hk'⟩ = _ := (List.getElem?_eq_some_iff.1 e1').2
  rw [e2, e2', hb]
  refine ⟨by simp only [hD.2.1], ⟨?_, ?_, ?_, ?_, roomFor_scale box _ _ hfp _ hR⟩, hC.scale _ _⟩
  · intro x
    rw [massAt_scale _ _ hfp.ne', massAt_scale _ _ hfp.ne', hD.1]
  · intro p hp
    obtain ⟨q, hq, rfl⟩ := List.mem_map.1 hp
    exact mul_pos (hs.masses_pos _ (mem_particlesOf hq).2) hgp
  · intro p hp
    obtain ⟨q, hq, rfl⟩ := List.mem_map.1 hp
    exact mul_pos (hs'.masses_pos _ (mem_particlesOf hq).2) hgp
  · have hl := particlesOf_length xyz masses hs.lengths obj.1 (hs.exist obj (List.mem_of_mem_filter hmem))
    have h6 := (List.mem_filter.1 hmem).2
    simp only [decide_eq_true_eq] at h6
    intro h0
    have := congrArg List.length h0
    simp only [List.length_map, List.length_nil] at this
    omega

theorem both_resampled : ∃ parts parts' r200, selectParticles o sel = .ok parts ∧ selectParticles o' sel = .ok parts' ∧
    fancy o.r200 (sel.map Int.toNat) = some r200 ∧ fancy o'.r200 (sel.map Int.toNat) = some r200 ∧
    r200.length = parts.length ∧ r200.length = parts'.length ∧ o.center = .com ∧ o'.center = .com ∧ o'.box = o.box ∧
    List.Forall₂ (fun pr pr' => pr'.2 = pr.2 ∧ Resampled o.box pr.1 pr'.1) (parts.zip r200) (parts'.zip r200) := by
  obtain ⟨parts, parts', r200, h1, h1', h2, h2', h3, h3', h4, h4', h5, h6⟩ := both_counted c hc xyz xyz' masses masses' box objs objs' minPtcs
    minPtcs' hmin hmin' hs hs' hd o o' ho ho' sel hsel hroom 0 0 (by intro z _ obj obj' _ _ X; constructor <;> intro h <;> omega)
  exact ⟨parts, parts', r200, h1, h1', h2, h2', h3, h3', h4, h4', h5, h6.imp fun _ _ h => ⟨h.1, h.2.1⟩⟩

variable (choose choose' : Nat → List Nat) (hch : ∀ n, 0 < n → ∃ j ∈ choose n, j < n)
  (hch' : ∀ n, 0 < n → ∃ j ∈ choose' n, j < n) (limit : Nat) (c' : Cfg ℝ)
include hch hch'

/-- C152 (partial). Two catalogues whose objects have the same distribution of mass, with `CENTER = 'com'`, and objects which cross no face: masses and
centres are the same.  Missing: `CENTER = 'mode'` (`C152_mode_refuted`). -/
theorem C152_centres_partial (out out' : Except Err (List (Vec ℝ × ℝ)))
    (hrun : GetMassesCenters c' choose limit o sel out) (hrun' : GetMassesCenters c' choose' limit o' sel out') : out' = out := by
  obtain ⟨parts, parts', r200, h1, h1', h2, h2', h3, h3', h4, h4', h5, h6⟩ := both_resampled c hc xyz xyz' masses masses' box objs objs' minPtcs
    minPtcs' hmin hmin' hs hs' hd o o' ho ho' sel hsel hroom
  rw [getMassesCenters_fn c' choose limit o sel parts h1 out hrun, getMassesCenters_fn c' choose' limit o' sel parts' h1' out' hrun', h4, h4', h5]
  have e : parts = (parts.zip r200).map Prod.fst := (List.map_fst_zip (by omega)).symm
  have e' : parts' = (parts'.zip r200).map Prod.fst := (List.map_fst_zip (by omega)).symm
  unfold massesOf
  rw [mapM_eq_of_map]
  rw [e, e']
  generalize parts.zip r200 = l at h6
  generalize parts'.zip r200 = l' at h6
  clear e e'
  induction h6 with
  | nil => rfl
  | @cons pr pr' _ _ h _ ih =>
    simp only [List.map_cons, List.cons.injEq]
    refine ⟨?_, ih⟩
    obtain ⟨g1, g2, -, -⟩ := h.2.centres choose choose' hch hch' limit limit
    rw [g1, g2, h.2.total]

/-- C152 (partial). The same for density profiles (spherical shells). -/
theorem C152_profiles_partial (radii : List ℝ) (hradii : radii ≠ []) (out out' : Except Err (List (List ℝ)))
    (hrun : EstDensProfs c' choose limit o radii sel out) (hrun' : EstDensProfs c' choose' limit o' radii sel out') : out' = out := by
  obtain ⟨parts, parts', r200, h1, h1', h2, h2', h3, h3', h4, h4', h5, h6⟩ := both_resampled c hc xyz xyz' masses masses' box objs objs' minPtcs
    minPtcs' hmin hmin' hs hs' hd o o' ho ho' sel hsel hroom
  obtain ⟨edges, hedges⟩ : ∃ e, sphEdges radii = some e := by
    unfold sphEdges
    rw [List.getLast?_eq_some_getLast hradii]
    exact ⟨_, rfl⟩
  rw [estDensProfs_fn c' choose limit o radii edges hedges sel parts h1 r200 h2 h3 out hrun,
    estDensProfs_fn c' choose' limit o' radii edges hedges sel parts' h1' r200 h2' h3' out' hrun', h4, h4', h5]
  exact profilesOf_resampled c' choose choose' hch hch' limit o.box edges _ _ h6

/-- C152 (partial). The same for kernel-based density profiles. -/
theorem C152_kernel_partial (radii : List ℝ) (out out' : Except KernelErr (List (List ℝ)))
    (hrun : EstDensProfsKernel c' choose limit o radii sel out)
    (hrun' : EstDensProfsKernel c' choose' limit o' radii sel out') : out' = out := by
  obtain ⟨parts, parts', r200, h1, h1', h2, h2', h3, h3', h4, h4', h5, h6⟩ := both_resampled c hc xyz xyz' masses masses' box objs objs' minPtcs
    minPtcs' hmin hmin' hs hs' hd o o' ho ho' sel hsel hroom
  have hsame : kernelOf choose' limit o.box .com radii (parts'.zip r200) = kernelOf choose limit o.box .com radii (parts.zip r200) := by
    clear h1 h1' h2 h2' hrun hrun'
    generalize parts.zip r200 = l at *
    generalize parts'.zip r200 = l' at *
    induction h6 with
    | nil => rfl
    | @cons pr pr' _ _ h _ ih =>
      unfold kernelOf
      obtain ⟨g1, g2, -, -⟩ := h.2.centres choose choose' hch hch' limit limit
      rw [g1, g2, ih, h.1]
      simp only [h.2.width, h.2.kernel]
  rw [estDensProfsKernel_fn c' choose limit o radii sel parts h1 r200 h2 out hrun,
    estDensProfsKernel_fn c' choose' limit o' radii sel parts' h1' r200 h2' out' hrun', h4, h4', h5, hsame]

/-- C152 (partial). The same for shapes, entry by entry, if moreover the minimum number of particles `IT_MIN` (possibly different) is reached in the same
regions.  Missing: other minimum numbers (`C152_min_refuted`). -/
theorem C152_shapes_partial (sol : Solver) (katz : Katz) (n' : Int) (whole : Bool)
    (hcount : ∀ z ∈ sel, ∀ obj obj', (resolved minPtcs objs)[z.toNat]? = some obj → (resolved minPtcs' objs')[z.toNat]? = some obj' →
      SameCounts katz.itMin n' (particlesOf xyz masses obj.1) (particlesOf xyz' masses' obj'.1))
    (out out' : Except ShapeErr (List (List ShapeEntry)))
    (hrun : GetShapeCat c' sol choose limit o katz whole sel out)
    (hrun' : GetShapeCat c' sol choose' limit o' (katz.withMin n') whole sel out') : out' = out := by
  obtain ⟨parts, parts', r200, h1, h1', h2, h2', h3, h3', h4, h4', h5, h6⟩ := both_counted c hc xyz xyz' masses masses' box objs objs' minPtcs
    minPtcs' hmin hmin' hs hs' hd o o' ho ho' sel hsel hroom _ _ hcount
  rw [getShapeCat_fn c' sol choose limit o katz whole sel parts h1 r200 h2 h3 out hrun,
    getShapeCat_fn c' sol choose' limit o' _ whole sel parts' h1' r200 h2' h3' out' hrun', h4, h4', h5]
  exact shapesOf_resampled c' sol choose choose' hch hch' limit o.box katz n' whole _ _ h6

end

/-! ## Splitting particles -/

theorem flatMap_get {α : Type} (k : Nat) (l : List α) (i j : Nat) (hj : j < k) :
    (l.flatMap fun x => List.replicate k x)[i * k + j]? = l[i]? := by
  induction l generalizing i with
  | nil => simp
  | cons x l ih =>
    rw [List.flatMap_cons]
    cases i with
    | zero =>
      rw [List.getElem?_append_left (by simpa using hj)]
      simp [hj]
    | succ i =>
      rw [List.getElem?_append_right (by simp; nlinarith), List.length_replicate, List.getElem?_cons_succ, ← ih i]
      congr 1
      rw [Nat.succ_mul]
      omega

theorem splitMasses_eq (k : Nat) (masses : List ℝ) :
    splitMasses k masses = (masses.map (· / (k : ℝ))).flatMap fun x => List.replicate k x := by
  unfold splitMasses
  rw [List.flatMap_map]

theorem particlesOf_split (k : Nat) (xyz : List (Vec ℝ)) (masses : List ℝ) (idx : List Nat) :
    particlesOf (splitXyz k xyz) (splitMasses k masses) (idx.flatMap fun i => (List.range k).map (i * k + ·)) =
      (particlesOf xyz masses idx).flatMap fun p => List.replicate k ⟨p.pos, p.mass / k⟩ := by
  induction idx with
  | nil => rfl
  | cons i idx ih =>
    unfold particlesOf at ih ⊢
    rw [List.flatMap_cons, List.filterMap_append, ih, List.filterMap_cons]
    have e : ((List.range k).map (i * k + ·)).filterMap (fun i => ((splitXyz k xyz)[i]?).bind fun x =>
        ((splitMasses k masses)[i]?).map fun m => (⟨x, m⟩ : Particle ℝ)) =
        (List.range k).filterMap fun _ => (xyz[i]?).bind fun x => (masses[i]?).map fun m => (⟨x, m / k⟩ : Particle ℝ) := by
      rw [List.filterMap_map]
      apply List.filterMap_congr
      intro j hj
      have hj := List.mem_range.1 hj
      simp only [Function.comp]
      rw [splitMasses_eq, flatMap_get k _ i j hj, List.getElem?_map]
      unfold splitXyz
      rw [flatMap_get k _ i j hj]
      cases xyz[i]? <;> cases masses[i]? <;> rfl
    rw [e]
    cases hx : (xyz[i]?).bind fun x => (masses[i]?).map fun m => (⟨x, m⟩ : Particle ℝ) with
    | none =>
      have : ((xyz[i]?).bind fun x => (masses[i]?).map fun m => (⟨x, m / k⟩ : Particle ℝ)) = none := by
        cases h1 : xyz[i]? with
        | none => rfl
        | some x =>
          cases h2 : masses[i]? with
          | none => rfl
          | some m => rw [h1, h2] at hx; cases hx
      rw [this]
      simp
    | some p =>
      have : ((xyz[i]?).bind fun x => (masses[i]?).map fun m => (⟨x, m / k⟩ : Particle ℝ)) = some ⟨p.pos, p.mass / k⟩ := by
        obtain ⟨x, hx1, hm⟩ := Option.bind_eq_some_iff.1 hx
        obtain ⟨m, hm1, rfl⟩ := Option.map_eq_some_iff.1 hm
        rw [hx1, hm1]
        rfl
      rw [this, List.flatMap_cons]
      congr 1
      have e2 : (fun _ : Nat => some (⟨p.pos, p.mass / k⟩ : Particle ℝ)) = some ∘ fun _ => ⟨p.pos, p.mass / k⟩ := rfl
      rw [e2, List.filterMap_eq_map, List.map_const', List.length_range]

/-- C152. Splitting every particle into `k` equal pieces at the same place gives catalogues as in the theorems above, if `MIN_NUMBER_PTCS` and `IT_MIN`
are multiplied by `k`. -/
theorem C152_split (k : Nat) (hk : 0 < k) (xyz : List (Vec ℝ)) (masses : List ℝ) (objs : List (List Nat × ℝ)) (hs : PointCloud xyz masses objs)
    (minPtcs : Int) :
    PointCloud (splitXyz k xyz) (splitMasses k masses) (splitObjs k objs) ∧
    SameDistribution xyz masses objs minPtcs (splitXyz k xyz) (splitMasses k masses) (splitObjs k objs) (k * minPtcs) ∧
    ∀ (n : Int) (z : Nat) (obj obj' : List Nat × ℝ), (resolved minPtcs objs)[z]? = some obj →
      (resolved (k * minPtcs) (splitObjs k objs))[z]? = some obj' →
      SameCounts n (k * n) (particlesOf xyz masses obj.1) (particlesOf (splitXyz k xyz) (splitMasses k masses) obj'.1) := by
  classical
  have hk0 : (k : ℝ) ≠ 0 := by exact_mod_cast hk.ne'
  have hkp : (0 : ℝ) < k := by exact_mod_cast hk
  have hlen : ∀ idx : List Nat, (idx.flatMap fun i => (List.range k).map (i * k + ·)).length = k * idx.length := by
    intro idx
    induction idx with
    | nil => rfl
    | cons i idx ih => rw [List.flatMap_cons, List.length_append, ih]; simp; ring
  have hres : ∀ n : Nat, ((k : Int) * minPtcs ≤ ((k * n : Nat) : Int)) ↔ minPtcs ≤ (n : Int) := by
    intro n
    have : (0 : Int) < k := by exact_mod_cast hk
    push_cast
    exact mul_le_mul_iff_right₀ this
  refine ⟨⟨?_, ?_, ?_, ?_⟩, ?_, ?_⟩
  · unfold splitXyz splitMasses
    have := hs.lengths
    simp only [List.length_flatMap, List.length_replicate, List.map_const', List.sum_replicate, this]
  · intro m hm
    obtain ⟨m', hm', h2⟩ := List.mem_flatMap.1 hm
    rw [(List.mem_replicate.1 h2).2]
    exact div_pos (hs.masses_pos m' hm') hkp
  · unfold splitObjs
    simpa using hs.objects
  · intro o ho i hi
    obtain ⟨o₀, ho₀, rfl⟩ := List.mem_map.1 ho
    obtain ⟨i₀, hi₀, h2⟩ := List.mem_flatMap.1 hi
    obtain ⟨j, hj, rfl⟩ := List.mem_map.1 h2
    have h3 := hs.exist o₀ ho₀ i₀ hi₀
    have h4 := List.mem_range.1 hj
    have h5 : (splitXyz k xyz).length = xyz.length * k := by
      unfold splitXyz
      simp only [List.length_flatMap, List.length_replicate, List.map_const', List.sum_replicate, smul_eq_mul]
    rw [h5]
    nlinarith
  · unfold SameDistribution splitObjs
    rw [List.forall₂_map_right_iff]
    refine List.forall₂_same.2 fun o _ => ⟨?_, rfl, ?_⟩
    · intro x
      simp only
      rw [particlesOf_split]
      unfold massAt
      generalize particlesOf xyz masses o.1 = ps
      induction ps with
      | nil => rfl
      | cons p ps ih =>
        rw [List.flatMap_cons, List.map_append, List.sum_append, ih, List.map_cons, List.sum_cons]
        congr 1
        rw [List.map_replicate, List.sum_replicate]
        simp only
        split
        · rw [nsmul_eq_mul]; field_simp
        · simp
    · simp only
      rw [hlen]
      exact hres _
  · intro n z obj obj' h1 h2 X
    have hobj' : obj' = (obj.1.flatMap fun i => (List.range k).map (i * k + ·), obj.2) := by
      have e : resolved (k * minPtcs) (splitObjs k objs) = splitObjs k (resolved minPtcs objs) := by
        unfold resolved splitObjs
        rw [List.filter_map]
        congr 1
        apply List.filter_congr
        intro o _
        simp only [Function.comp, decide_eq_decide]
        rw [hlen]
        exact hres _
      rw [e] at h2
      unfold splitObjs at h2
      rw [List.getElem?_map, h1] at h2
      exact (Option.some.inj h2).symm
    rw [hobj']
    simp only
    rw [particlesOf_split]
    generalize particlesOf xyz masses obj.1 = ps
    have e : ((ps.flatMap fun p => List.replicate k (⟨p.pos, p.mass / k⟩ : Particle ℝ)).filter fun p => X p.pos).length =
        k * (ps.filter fun p => X p.pos).length := by
      induction ps with
      | nil => rfl
      | cons p ps ih =>
        rw [List.flatMap_cons, List.filter_append, List.length_append, ih, List.filter_cons, List.filter_replicate]
        by_cases hX : X p.pos
        · simp [hX]; ring
        · simp [hX]
    rw [e]
    have : (0 : Int) < k := by exact_mod_cast hk
    push_cast
    exact mul_lt_mul_iff_right₀ this

/-! ## Where the number of particles matters -/

/-- Fewer particles than `IT_MIN`: no shape at any radius. -/
theorem few_none (st : Settings) (ps : List Pt) (hn : (ps.length : Int) < st.itMin) (htol : st.tol < 1) (hwall : 1 ≤ st.wall) (v : Vec ℝ) (r : ℝ)
    (cols : Nat) : pureLocal st ps v v r cols = some (List.replicate cols .zero) := by
  have hone : ∀ (d : ℝ) (δ : Option ℝ) (m : Morph), pureOne (st.config ps v v d δ) m = some .zero := by
    intro d δ m
    have hsl : (pureStart (st.config ps v v d δ) m).sel.length ≤ ps.length := by
      have : (pureStart (st.config ps v v d δ) m).sel =
          (ps.filter (Shapes.initialTest (st.config ps v v d δ))).map fun p => (p, Shapes.radius0 (st.config ps v v d δ) p) := by
        apply Shapes.select_spec
        · exact List.forall₂_map_right_iff.2 (List.forall₂_same.2 fun _ _ => rfl)
        · exact List.forall₂_map_right_iff.2 (List.forall₂_same.2 fun _ _ => rfl)
      rw [this, List.length_map]
      exact List.length_filter_le _ _
    have hstep : pureStep (st.config ps v v d δ) (pureStart (st.config ps v v d δ) m) = .stop (some .zero) := by
      unfold pureStep
      have g1 : (pureStart (st.config ps v v d δ) m).err > (st.config ps v v d δ).tol := htol
      have g2 : ¬ ((pureStart (st.config ps v v d δ) m).iteration : Int) > (st.config ps v v d δ).wall := by
        show ¬ ((1 : Nat) : Int) > st.wall
        omega
      have g3 : ((pureStart (st.config ps v v d δ) m).sel.length : Int) < (st.config ps v v d δ).itMin := by
        show ((pureStart (st.config ps v v d δ) m).sel.length : Int) < st.itMin
        omega
      rw [if_pos g1, if_neg g2, if_pos g3]
    unfold pureOne pureRun
    rw [Shapes.loop, hstep]
    rfl
  unfold pureLocal pureLoop
  split
  · rfl
  · split
    · rfl
    · simp only [hone]
      have hl : ∀ l : List ((ℝ × Option ℝ) × Morph), l.mapM (fun _ => some Morph.zero) = some (List.replicate l.length Morph.zero) := by
        intro l
        induction l with
        | nil => rfl
        | cons a l ih => rw [List.mapM_cons, ih]; rfl
      rw [hl, List.length_map, List.length_range]

theorem cross_sensible : Sensible crossXyz [1, 1, 1, 1, 1, 1] 20 [([0, 1, 2, 3, 4, 5], 100)] := by
  refine ⟨rfl, by norm_num, ?_, ?_, by simp, ?_⟩
  · intro x hx a
    simp only [crossXyz, List.mem_cons, List.not_mem_nil, or_false] at hx
    rcases hx with rfl | rfl | rfl | rfl | rfl | rfl <;> fin_cases a <;> norm_num
  · intro m hm
    simp only [List.mem_cons, List.not_mem_nil, or_false, or_self] at hm
    rw [hm]; norm_num
  · intro o ho i hi
    simp only [List.mem_singleton] at ho
    subst ho
    simp only [List.mem_cons, List.not_mem_nil, or_false] at hi
    simp only [crossXyz, List.length_cons, List.length_nil]
    omega

theorem cross_room : RoomFor 20 (particlesOf crossXyz [1, 1, 1, 1, 1, 1] [0, 1, 2, 3, 4, 5]) := by
  have hb : ∀ p ∈ particlesOf crossXyz [1, 1, 1, 1, 1, 1] [0, 1, 2, 3, 4, 5], ∀ a, 2 ≤ p.pos a ∧ p.pos a ≤ 8 := by
    intro p hp a
    have := (mem_particlesOf hp).1
    simp only [crossXyz, List.mem_cons, List.not_mem_nil, or_false] at this
    rcases this with h | h | h | h | h | h <;> rw [h] <;> fin_cases a <;> norm_num
  refine .inr ⟨by norm_num, ?_⟩
  intro p hp q hq a
  have h1 := hb p hp a
  have h2 := hb q hq a
  rw [abs_le]
  constructor <;> linarith [h1.1, h1.2, h2.1, h2.2]

/-- The full property is false: with `IT_MIN = 12`, the cross of `C106_cross` (six particles) has no shape; with each particle split into two of half
the mass, it has the axis ratios 2/3 and 1/3. -/
theorem C152_min_refuted (h : ℝ) (hh : 0 < h) (sol : Solver) (hsol : GoodSolver sol)
    (choose : Nat → List Nat) (hch : ∀ n, 0 < n → ∃ j ∈ choose n, j < n) (limit : Nat) (o o' : Obj)
    (ho : construct ⟨mpch h, msunh10 h, 1, h, mpch h, msunh10 h, 1⟩ ⟨crossXyz, [1, 1, 1, 1, 1, 1],
      .nested [[0, 1, 2, 3, 4, 5]], .array [100], 20, 6, .com⟩ = .ok o)
    (ho' : construct ⟨mpch h, msunh10 h, 1, h, mpch h, msunh10 h, 1⟩ ⟨splitXyz 2 crossXyz, splitMasses 2 [1, 1, 1, 1, 1, 1],
      .nested [[0, 1, 2, 3, 4, 5, 6, 7, 8, 9, 10, 11]], .array [100], 20, 6, .com⟩ = .ok o')
    (out out' : Except ShapeErr (List (List ShapeEntry)))
    (hrun : GetShapeCat ⟨mpch h, msunh10 h, 1, h, mpch h, msunh10 h, 1⟩ sol choose limit o ⟨[1], 1 / 10, 100, 12, false, false⟩ false [0] out)
    (hrun' : GetShapeCat ⟨mpch h, msunh10 h, 1, h, mpch h, msunh10 h, 1⟩ sol choose limit o' ⟨[1], 1 / 10, 100, 12, false, false⟩ false [0] out') :
    (∃ e : ShapeEntry, out = .ok [[e]] ∧ e.conv = false ∧ e.q = none ∧ e.s = none) ∧
    ∃ e : ShapeEntry, out' = .ok [[e]] ∧ e.conv = true ∧ e.q = some (2 / 3) ∧ e.s = some (1 / 3) := by
  have hl := mpch_pos hh
  have hms := msunh10_pos hh
  have hs := cross_sensible
  have hpc : PointCloud crossXyz [1, 1, 1, 1, 1, 1] [([0, 1, 2, 3, 4, 5], 100)] := ⟨hs.lengths, hs.masses_pos, hs.objects, hs.exist⟩
  have hres : resolved 6 [([0, 1, 2, 3, 4, 5], (100 : ℝ))] = [([0, 1, 2, 3, 4, 5], 100)] := by
    simp [resolved]
  have hsel : GoodSelection [0] (resolved 6 [([0, 1, 2, 3, 4, 5], (100 : ℝ))]).length := by
    rw [hres]
    exact ⟨by simp, by simp, by simp⟩
  constructor
  · rcases shape_rows _ _ _ _ _ _ 6 (by norm_num) .com hs sol choose limit o ho _ false [0] hsel out hrun with
      ⟨-, h⟩ | ⟨rows, hlen, hout, hrows⟩
    · cases h
    obtain ⟨-, v, hv, hrow⟩ := hrows 0 0 ([0, 1, 2, 3, 4, 5], 100) rfl (by rw [hres]; exact rfl)
    have hlen12 : (particlesOf crossXyz [1, 1, 1, 1, 1, 1] [0, 1, 2, 3, 4, 5]).length = 6 :=
      particlesOf_length _ _ rfl _ (by intro i hi; exact hs.exist _ (List.mem_singleton.2 rfl) i hi)
    have halone : ∀ (L : ℝ) (r : ℝ) (ps : List (Particle ℝ)), ps.length = 6 → RoomFor L ps →
        aloneShapes (Katz.settings ⟨[1], 1 / 10, 100, 12, false, false⟩ sol L) (kindOf false)
        ⟨ps.map fun p => ⟨p.pos, 0, p.mass⟩, v, r⟩ = some [.zero] := by
      intro L r ps hps hr
      change pureLocal _ (positionPts _ _) _ _ _ _ = _
      rw [positionPts_room _ ps v r hr]
      rw [few_none _ _ (by rw [List.length_map, hps]; exact (by decide : ((6 : Nat) : Int) < 12)) (show (1 / 10 : ℝ) < 1 by norm_num) (show (1 : Int) ≤ 100 by decide)]
      rfl
    rw [halone _ _ _ (by rw [List.length_map, hlen12]) (roomFor_scale 20 _ _ (by rw [div_self hl.ne']; norm_num) _ cross_room)] at hrow
    rcases hout with ⟨-, k, hk⟩ | ⟨res, rfl, hlen', hres'⟩
    · have : k = 0 := by
        have := (List.getElem?_eq_some_iff.1 hk).1
        simp only [List.length_singleton] at hlen
        omega
      subst this
      rw [hk] at hrow; cases hrow
    · obtain ⟨ms, hms', hresk⟩ := hres' 0 _ hrow
      obtain rfl := Option.some.inj hms'
      refine ⟨entryOf (mpch h / mpch h) .zero, ?_, ?_, ?_, ?_⟩
      · match res, hlen' with
        | [r], _ =>
          have hr : r = _ := Option.some.inj hresk
          rw [hr]; rfl
      all_goals simp [entryOf, Shapes.report, Shapes.nanZero, Morph.zero]
  · obtain ⟨out₀, hrun₀⟩ := C106_outcome_exists _ ⟨mpch h, msunh10 h, 1, h, mpch h, msunh10 h, 1⟩ crossXyz [1, 1, 1, 1, 1, 1] 20
      [([0, 1, 2, 3, 4, 5], 100)] 6 (by norm_num) .com hs sol choose limit o ho ⟨[1], 1 / 10, 100, 6, false, false⟩ false [0] hsel
    obtain ⟨e, he, h1, -, h2, h3, -⟩ := C106_cross 20 le_rfl h hh sol hsol choose hch limit o ho out₀ hrun₀
    obtain ⟨hp1, hp2, hp3⟩ := C152_split 2 (by norm_num) crossXyz [1, 1, 1, 1, 1, 1] [([0, 1, 2, 3, 4, 5], 100)] hpc 6
    have hobjs : splitObjs 2 [([0, 1, 2, 3, 4, 5], (100 : ℝ))] = [([0, 1, 2, 3, 4, 5, 6, 7, 8, 9, 10, 11], 100)] := by
      simp [splitObjs, List.range_succ]
    rw [hobjs] at hp1 hp2 hp3
    have hd : SameDistribution crossXyz [1, 1, 1, 1, 1, 1] [([0, 1, 2, 3, 4, 5], 100)] 6 (splitXyz 2 crossXyz)
        (splitMasses 2 [1, 1, 1, 1, 1, 1]) [([0, 1, 2, 3, 4, 5, 6, 7, 8, 9, 10, 11], 100)] 6 := by
      unfold SameDistribution at hp2 ⊢
      cases hp2 with
      | cons hx _ => exact .cons ⟨hx.1, hx.2.1, by simp⟩ .nil
    have hres' : resolved 6 [([0, 1, 2, 3, 4, 5, 6, 7, 8, 9, 10, 11], (100 : ℝ))] = [([0, 1, 2, 3, 4, 5, 6, 7, 8, 9, 10, 11], 100)] := by
      simp [resolved]
    have hres2 : resolved (2 * 6) [([0, 1, 2, 3, 4, 5, 6, 7, 8, 9, 10, 11], (100 : ℝ))] =
        [([0, 1, 2, 3, 4, 5, 6, 7, 8, 9, 10, 11], 100)] := by
      simp [resolved]
    have hsame := C152_shapes_partial ⟨mpch h, msunh10 h, 1, h, mpch h, msunh10 h, 1⟩ ⟨hl, hms, one_pos, hh, hl, hms, one_pos⟩ crossXyz
      (splitXyz 2 crossXyz) [1, 1, 1, 1, 1, 1] (splitMasses 2 [1, 1, 1, 1, 1, 1]) 20 [([0, 1, 2, 3, 4, 5], 100)]
      [([0, 1, 2, 3, 4, 5, 6, 7, 8, 9, 10, 11], 100)] 6 6 (by norm_num) (by norm_num) hpc hp1 hd o o' ho ho' [0] hsel
      (by
        intro z hz obj hobj
        rw [List.mem_singleton] at hz
        subst hz
        rw [hres] at hobj
        rw [← Option.some.inj hobj]
        exact cross_room)
      choose choose hch hch limit ⟨mpch h, msunh10 h, 1, h, mpch h, msunh10 h, 1⟩ sol ⟨[1], 1 / 10, 100, 6, false, false⟩ 12 false
      (by
        intro z hz obj obj' hobj hobj'
        rw [List.mem_singleton] at hz
        subst hz
        have := hp3 6 0 obj obj' hobj (by rw [hres'] at hobj'; exact (congrArg (·[0]?) hres2).trans hobj')
        exact this)
      out₀ out' hrun₀ hrun'
    exact ⟨e, hsame.trans he, h1, h2, h3⟩

/-- Particles on a line. -/
noncomputable def onLine (xs : List (ℝ × ℝ)) : List (Particle ℝ) := xs.map fun x => ⟨![x.1, 0, 0], x.2⟩

theorem onLine_mean (xs : List (ℝ × ℝ)) : weightedMean (onLine xs) = ![(xs.map fun x => x.2 * x.1).sum / (xs.map Prod.snd).sum, 0, 0] := by
  funext a
  unfold weightedMean totalMass onLine
  rw [List.map_map, List.map_map]
  fin_cases a
  · rfl
  · simp [Function.comp_def]
  · simp [Function.comp_def]

theorem onLine_filter (xs : List (ℝ × ℝ)) (x rad : ℝ) : ((onLine xs).filter fun p => decide (Periodic.dist p.pos ![x, 0, 0] < rad)) =
    onLine (xs.filter fun y => decide (|y.1 - x| < rad)) := by
  unfold onLine
  rw [List.filter_map]
  congr 1
  apply List.filter_congr
  intro y _
  simp only [Function.comp, decide_eq_decide]
  have : Periodic.dist ![y.1, 0, 0] ![x, 0, 0] = |y.1 - x| := by
    unfold Periodic.dist
    simp [Real.sqrt_sq_eq_abs]
  rw [this]

theorem onLine_step (fuel : Nat) (xs : List (ℝ × ℝ)) (rad x : ℝ) (ys : List (ℝ × ℝ)) (hx : (xs.map fun x => x.2 * x.1).sum / (xs.map Prod.snd).sum = x)
    (hy : (xs.filter fun y => decide (|y.1 - x| < rad)) = ys) :
    calcMode (fuel + 1) (onLine xs) rad = if ys.length < 5 then some ![x, 0, 0] else calcMode fuel (onLine ys) (rad * 0.83) := by
  rw [calcMode_succ, onLine_mean, hx, onLine_filter, hy]
  have : (onLine ys).length = ys.length := by simp [onLine]
  rw [this]

/-- Four particles on a line: a heavy one, two light ones at a distance of 700 on both sides, and one far away. -/
noncomputable def fourXyz : List (Vec ℝ) := [![700, 0, 0], ![0, 0, 0], ![1400, 0, 0], ![3000, 0, 0]]

/-- The full property is false for `CENTER = 'mode'`, which stops at five particles: four particles on a line have their centre of mass at 11400/13;
with each particle split into two of half the mass, the centre is at 700. -/
theorem C152_mode_refuted (h : ℝ) (hh : 0 < h) (choose : Nat → List Nat) (hch : ∀ n, 0 < n → ∃ j ∈ choose n, j < n) (limit : Nat) (hlim : 3 ≤ limit)
    (o o' : Obj)
    (ho : construct ⟨mpch h, msunh10 h, 1, h, mpch h, msunh10 h, 1⟩ ⟨fourXyz, [10, 1, 1, 1], .nested [[0, 1, 2, 3]], .array [1], 0, 1, .mode⟩ = .ok o)
    (ho' : construct ⟨mpch h, msunh10 h, 1, h, mpch h, msunh10 h, 1⟩ ⟨splitXyz 2 fourXyz, splitMasses 2 [10, 1, 1, 1],
      .nested [[0, 1, 2, 3, 4, 5, 6, 7]], .array [1], 0, 1, .mode⟩ = .ok o')
    (out out' : Except Err (List (Vec ℝ × ℝ)))
    (hrun : GetMassesCenters ⟨mpch h, msunh10 h, 1, h, mpch h, msunh10 h, 1⟩ choose limit o [0] out)
    (hrun' : GetMassesCenters ⟨mpch h, msunh10 h, 1, h, mpch h, msunh10 h, 1⟩ choose limit o' [0] out') :
    ∃ x x' : Vec ℝ, out = .ok [(x, 13)] ∧ out' = .ok [(x', 13)] ∧ x 0 = 11400 / 13 ∧ x' 0 = 700 := by
  have hl := mpch_pos hh
  have hms := msunh10_pos hh
  have hid : (scale 1 1) = id := by funext p; exact scale_one p
  have hsel : ∀ idx : List Nat, idx ≠ [] → GoodSelection [0] (resolved 1 [(idx, (1 : ℝ))]).length ∧ resolved 1 [(idx, (1 : ℝ))] = [(idx, 1)] := by
    intro idx hne
    have hr : resolved 1 [(idx, (1 : ℝ))] = [(idx, 1)] := by
      have := List.length_pos_iff.2 hne
      simp only [resolved, List.filter_cons, List.filter_nil]
      rw [if_pos]
      simp only [decide_eq_true_eq]
      omega
    rw [hr]
    exact ⟨⟨by simp, by simp, by simp⟩, rfl⟩
  have gen : ∀ (xyz : List (Vec ℝ)) (masses : List ℝ) (idx : List Nat) (hne : idx ≠ []) (hlen : xyz.length = masses.length)
      (hex : ∀ i ∈ idx, i < xyz.length) (o : Obj)
      (ho : construct ⟨mpch h, msunh10 h, 1, h, mpch h, msunh10 h, 1⟩ ⟨xyz, masses, .nested [idx], .array [1], 0, 1, .mode⟩ = .ok o)
      (out : Except Err (List (Vec ℝ × ℝ)))
      (_ : GetMassesCenters ⟨mpch h, msunh10 h, 1, h, mpch h, msunh10 h, 1⟩ choose limit o [0] out) (x : Vec ℝ)
      (_ : calcMode limit (particlesOf xyz masses idx) 1000 = some x), out = .ok [(x, totalMass (particlesOf xyz masses idx))] := by
    intro xyz masses idx hne hlen hex o ho out hrun x hx
    obtain ⟨hs1, hs2⟩ := hsel idx hne
    obtain ⟨hb, hcen, parts, r200, h1, h2, h3, h4, h5⟩ := prepared_of _ xyz masses 0 [(idx, 1)] 1 le_rfl .mode hlen (by simp)
      (by intro o ho i hi; rw [List.mem_singleton.1 ho] at hi; exact hex i hi) o ho [0] hs1
    have e := h5 0 0 (idx, 1) rfl (by rw [hs2]; rfl)
    simp only [div_self hl.ne', div_self hms.ne', hid, List.map_id] at e
    have hp : parts = [particlesOf xyz masses idx] := by
      have := (List.getElem?_zip_eq_some.1 e).1
      match parts, h4 with
      | [p], _ => simpa using this
    rw [getMassesCenters_fn _ choose limit o [0] parts h1 out hrun, hcen, hb, zero_mul, hp]
    unfold massesOf
    have hlen2 : (particlesOf xyz masses idx).length = idx.length := particlesOf_length xyz masses hlen idx hex
    have hcen2 : centreOf choose limit 0 .mode (particlesOf xyz masses idx) = some x := by
      have hu := unwrapped_room choose 0 (particlesOf xyz masses idx) (hch _ (by rw [hlen2]; exact List.length_pos_iff.2 hne)) (.inl rfl)
      unfold unwrapped at hu
      unfold centreOf
      dsimp only
      rw [hu]
      exact hx
    rw [List.mapM_cons, hcen2]
    simp only [Option.map_some, List.mapM_nil, Option.bind_eq_bind, Option.bind_some, Option.pure_def, List.map_cons, List.map_nil,
      div_self hl.ne', div_self hms.ne', mul_one]
    congr 3
    funext a
    unfold recentreAxis
    simp
  have hps : particlesOf fourXyz [10, 1, 1, 1] [0, 1, 2, 3] = onLine [(700, 10), (0, 1), (1400, 1), (3000, 1)] := by
    simp [particlesOf, fourXyz, onLine]
  have hps' : particlesOf (splitXyz 2 fourXyz) (splitMasses 2 [10, 1, 1, 1]) [0, 1, 2, 3, 4, 5, 6, 7] =
      onLine [(700, 5), (700, 5), (0, 1 / 2), (0, 1 / 2), (1400, 1 / 2), (1400, 1 / 2), (3000, 1 / 2), (3000, 1 / 2)] := by
    have := particlesOf_split 2 fourXyz [10, 1, 1, 1] [0, 1, 2, 3]
    have e : ([0, 1, 2, 3].flatMap fun i => (List.range 2).map (i * 2 + ·)) = [0, 1, 2, 3, 4, 5, 6, 7] := by
      simp [List.range_succ]
    rw [e, hps] at this
    rw [this]
    simp [onLine, List.replicate]
    norm_num
  have hm1 : calcMode limit (onLine [(700, 10), (0, 1), (1400, 1), (3000, 1)]) 1000 = some ![11400 / 13, 0, 0] := by
    obtain ⟨n, rfl⟩ : ∃ n, limit = n + 1 := ⟨limit - 1, by omega⟩
    rw [onLine_step n _ 1000 (11400 / 13) [(700, 10), (0, 1), (1400, 1)] (by norm_num) (by
      simp only [List.filter_cons, List.filter_nil]
      norm_num [abs_lt])]
    simp
  have hm2 : calcMode limit (onLine [(700, 5), (700, 5), (0, 1 / 2), (0, 1 / 2), (1400, 1 / 2), (1400, 1 / 2), (3000, 1 / 2), (3000, 1 / 2)]) 1000 =
      some ![700, 0, 0] := by
    obtain ⟨n, rfl⟩ : ∃ n, limit = n + 3 := ⟨limit - 3, by omega⟩
    rw [onLine_step (n + 2) _ 1000 (11400 / 13) [(700, 5), (700, 5), (0, 1 / 2), (0, 1 / 2), (1400, 1 / 2), (1400, 1 / 2)] (by norm_num) (by
      simp only [List.filter_cons, List.filter_nil]
      norm_num [abs_lt]), if_neg (by simp)]
    rw [onLine_step (n + 1) _ _ 700 [(700, 5), (700, 5), (0, 1 / 2), (0, 1 / 2), (1400, 1 / 2), (1400, 1 / 2)] (by norm_num) (by
      simp only [List.filter_cons, List.filter_nil]
      norm_num [abs_lt]), if_neg (by simp)]
    rw [onLine_step n _ _ 700 [(700, 5), (700, 5)] (by norm_num) (by
      simp only [List.filter_cons, List.filter_nil]
      norm_num [abs_lt])]
    simp
  have e1 := gen fourXyz [10, 1, 1, 1] [0, 1, 2, 3] (by simp) rfl (by intro i hi; simp [fourXyz] at hi ⊢; omega) o ho out hrun _ (by rw [hps]; exact hm1)
  have e2 := gen (splitXyz 2 fourXyz) (splitMasses 2 [10, 1, 1, 1]) [0, 1, 2, 3, 4, 5, 6, 7] (by simp)
    (by simp [splitXyz, splitMasses, fourXyz, List.replicate]) (by intro i hi; simp [splitXyz, fourXyz, List.replicate] at hi ⊢; omega) o' ho' out' hrun' _
    (by rw [hps']; exact hm2)
  refine ⟨![11400 / 13, 0, 0], ![700, 0, 0], ?_, ?_, rfl, rfl⟩
  · rw [e1, hps]
    norm_num [totalMass, onLine]
  · rw [e2, hps']
    norm_num [totalMass, onLine]

/-- Such objects exist, and the calls have outcomes. -/
example (h : ℝ) (sol : Solver) (choose : Nat → List Nat) (limit : Nat) :
    (∃ o out, construct ⟨mpch h, msunh10 h, 1, h, mpch h, msunh10 h, 1⟩ ⟨crossXyz, [1, 1, 1, 1, 1, 1],
      .nested [[0, 1, 2, 3, 4, 5]], .array [100], 20, 6, .com⟩ = .ok o ∧
      GetShapeCat ⟨mpch h, msunh10 h, 1, h, mpch h, msunh10 h, 1⟩ sol choose limit o ⟨[1], 1 / 10, 100, 12, false, false⟩ false [0] out) ∧
    (∃ o' out', construct ⟨mpch h, msunh10 h, 1, h, mpch h, msunh10 h, 1⟩ ⟨splitXyz 2 crossXyz, splitMasses 2 [1, 1, 1, 1, 1, 1],
      .nested [[0, 1, 2, 3, 4, 5, 6, 7, 8, 9, 10, 11]], .array [100], 20, 6, .com⟩ = .ok o' ∧
      GetShapeCat ⟨mpch h, msunh10 h, 1, h, mpch h, msunh10 h, 1⟩ sol choose limit o' ⟨[1], 1 / 10, 100, 12, false, false⟩ false [0] out') ∧
    (∃ o out, construct ⟨mpch h, msunh10 h, 1, h, mpch h, msunh10 h, 1⟩ ⟨fourXyz, [10, 1, 1, 1], .nested [[0, 1, 2, 3]], .array [1], 0, 1, .mode⟩ =
      .ok o ∧ GetMassesCenters ⟨mpch h, msunh10 h, 1, h, mpch h, msunh10 h, 1⟩ choose limit o [0] out) ∧
    ∃ o out, construct ⟨mpch h, msunh10 h, 1, h, mpch h, msunh10 h, 1⟩ ⟨splitXyz 2 fourXyz, splitMasses 2 [10, 1, 1, 1],
      .nested [[0, 1, 2, 3, 4, 5, 6, 7]], .array [1], 0, 1, .mode⟩ = .ok o ∧
      GetMassesCenters ⟨mpch h, msunh10 h, 1, h, mpch h, msunh10 h, 1⟩ choose limit o [0] out := by
  have hs := cross_sensible
  have hlen : (splitXyz 2 crossXyz).length = (splitMasses 2 [1, 1, 1, 1, 1, 1]).length := by simp [splitXyz, splitMasses, crossXyz, List.replicate]
  have hlen' : (splitXyz 2 fourXyz).length = (splitMasses 2 [10, 1, 1, 1]).length := by simp [splitXyz, splitMasses, fourXyz, List.replicate]
  have ho1 := construct_eq ⟨mpch h, msunh10 h, 1, h, mpch h, msunh10 h, 1⟩ crossXyz [1, 1, 1, 1, 1, 1] 20 [([0, 1, 2, 3, 4, 5], 100)] 6 .com rfl
    (by simp)
  have ho2 := construct_eq ⟨mpch h, msunh10 h, 1, h, mpch h, msunh10 h, 1⟩ (splitXyz 2 crossXyz) (splitMasses 2 [1, 1, 1, 1, 1, 1]) 20
    [([0, 1, 2, 3, 4, 5, 6, 7, 8, 9, 10, 11], 100)] 6 .com hlen (by simp)
  have ho3 := construct_eq ⟨mpch h, msunh10 h, 1, h, mpch h, msunh10 h, 1⟩ fourXyz [10, 1, 1, 1] 0 [([0, 1, 2, 3], 1)] 1 .mode rfl (by simp)
  have ho4 := construct_eq ⟨mpch h, msunh10 h, 1, h, mpch h, msunh10 h, 1⟩ (splitXyz 2 fourXyz) (splitMasses 2 [10, 1, 1, 1]) 0
    [([0, 1, 2, 3, 4, 5, 6, 7], 1)] 1 .mode hlen' (by simp)
  obtain ⟨out1, h1⟩ := C106_outcome_exists _ ⟨mpch h, msunh10 h, 1, h, mpch h, msunh10 h, 1⟩ _ _ _ _ 6 (by norm_num) .com hs sol choose limit _ ho1
    ⟨[1], 1 / 10, 100, 12, false, false⟩ false [0] (by simp [resolved, GoodSelection])
  have hs' : Sensible (splitXyz 2 crossXyz) (splitMasses 2 [1, 1, 1, 1, 1, 1]) 20 [([0, 1, 2, 3, 4, 5, 6, 7, 8, 9, 10, 11], 100)] := by
    refine ⟨hlen, by norm_num, ?_, ?_, by simp, ?_⟩
    · intro x hx
      obtain ⟨y, hy, h2⟩ := List.mem_flatMap.1 hx
      rw [(List.mem_replicate.1 h2).2]
      exact hs.inside y hy
    · intro m hm
      obtain ⟨y, hy, h2⟩ := List.mem_flatMap.1 hm
      rw [(List.mem_replicate.1 h2).2]
      exact div_pos (hs.masses_pos y hy) (by norm_num)
    · intro o ho i hi
      simp only [List.mem_singleton] at ho
      subst ho
      simp only [List.mem_cons, List.not_mem_nil, or_false] at hi
      simp only [splitXyz, crossXyz, List.flatMap_cons, List.flatMap_nil, List.replicate, List.length_append, List.length_cons, List.length_nil]
      omega
  obtain ⟨out2, h2⟩ := C106_outcome_exists _ ⟨mpch h, msunh10 h, 1, h, mpch h, msunh10 h, 1⟩ _ _ _ _ 6 (by norm_num) .com hs' sol choose limit _ ho2
    ⟨[1], 1 / 10, 100, 12, false, false⟩ false [0] (by simp [resolved, GoodSelection])
  obtain ⟨out3, h3⟩ := C95_outcome_exists ⟨mpch h, msunh10 h, 1, h, mpch h, msunh10 h, 1⟩ choose limit _ [0]
  obtain ⟨out4, h4⟩ := C95_outcome_exists ⟨mpch h, msunh10 h, 1, h, mpch h, msunh10 h, 1⟩ choose limit _ [0]
  exact ⟨⟨_, out1, ho1, h1⟩, ⟨_, out2, ho2, h2⟩, ⟨_, out3, ho3, h3⟩, ⟨_, out4, ho4, h4⟩⟩

end Verif.Api
