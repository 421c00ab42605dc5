import Verif.Api.Open
import Verif.Api.Scaled
import Mathlib.Analysis.InnerProductSpace.PiL2

/-!
# What the mode of an object is (C158)

`CENTER = 'mode'` looks for the place of highest density with spheres which shrink.  Stated here: the procedure, independently of the recursion, and what it
is good for, namely that it finds a dominating clump, whatever lies around it.
-/

set_option linter.unusedSectionVars false

namespace Verif.Api

open Verif.Units Verif.Catalogue Verif.Periodic

/-! ## Specification -/

/-- `v` is found by shrinking spheres, beginning with radius `rad`: at each of `n` stages only particles closer than the radius to the centre of mass of the particles
so far are kept, at least five of them, and the radius is reduced by 17 %; then fewer than five would be kept, and `v` is the centre of mass. -/
def FoundByShrinking (ps : List (Particle ℝ)) (rad : ℝ) (n : Nat) (v : Vec ℝ) : Prop :=
  ∃ stage : Nat → List (Particle ℝ), stage 0 = ps ∧
    (∀ k < n, stage (k + 1) = (stage k).filter (fun p => decide (Periodic.dist p.pos (weightedMean (stage k)) < rad * 0.83 ^ k)) ∧
      5 ≤ (stage (k + 1)).length) ∧
    ((stage n).filter fun p => decide (Periodic.dist p.pos (weightedMean (stage n)) < rad * 0.83 ^ n)).length < 5 ∧
    v = weightedMean (stage n)

/-- The particles within `eps` of `x`. -/
noncomputable def near (x : Vec ℝ) (eps : ℝ) (ps : List (Particle ℝ)) : List (Particle ℝ) := ps.filter fun p => decide (Periodic.dist p.pos x ≤ eps)

/-- At least five particles, with at least three quarters of the mass, lie within `eps` of `x`. -/
structure Clump (x : Vec ℝ) (eps : ℝ) (ps : List (Particle ℝ)) : Prop where
  five : 5 ≤ (near x eps ps).length
  most : 3 * totalMass ps ≤ 4 * totalMass (near x eps ps)

/-! ## The procedure -/

/-- C158. Mode finding returns `v` (for a recursion limit `fuel`) exactly if `v` is found by shrinking spheres in less than `fuel` stages. -/
theorem C158_shrinking (fuel : Nat) (ps : List (Particle ℝ)) (rad : ℝ) (v : Vec ℝ) :
    calcMode fuel ps rad = some v ↔ ∃ n < fuel, FoundByShrinking ps rad n v := by
  induction fuel generalizing ps rad with
  | zero => exact ⟨fun h => (by cases h), fun ⟨n, hn, _⟩ => absurd hn (Nat.not_lt_zero n)⟩
  | succ fuel ih =>
    rw [calcMode_succ]
    by_cases h : (ps.filter fun p => decide (Periodic.dist p.pos (weightedMean ps) < rad)).length < 5
    · rw [if_pos h]
      constructor
      · intro e
        refine ⟨0, Nat.succ_pos _, fun _ => ps, rfl, fun k hk => absurd hk (Nat.not_lt_zero k), ?_, (Option.some.inj e).symm⟩
        simpa using h
      · rintro ⟨n, -, stage, rfl, h1, h2, rfl⟩
        cases n with
        | zero => rfl
        | succ n =>
          obtain ⟨e, h5⟩ := h1 0 (Nat.succ_pos n)
          rw [e] at h5
          simp only [pow_zero, mul_one] at h5
          omega
    · rw [if_neg h, ih]
      constructor
      · rintro ⟨n, hn, stage, hs, h1, h2, rfl⟩
        refine ⟨n + 1, Nat.succ_lt_succ hn, fun k => match k with | 0 => ps | k + 1 => stage k, rfl, ?_, ?_, rfl⟩
        · intro k hk
          cases k with
          | zero =>
            simp only [pow_zero, mul_one]
            rw [hs]
            exact ⟨rfl, not_lt.1 h⟩
          | succ k =>
            obtain ⟨e, h5⟩ := h1 k (Nat.lt_of_succ_lt_succ hk)
            refine ⟨?_, h5⟩
            simp only
            rw [e, pow_succ' _ k, ← mul_assoc]
        · simp only
          rw [pow_succ' _ n, ← mul_assoc]
          exact h2
      · rintro ⟨n, hn, stage, hs, h1, h2, rfl⟩
        cases n with
        | zero =>
          exfalso
          rw [hs] at h2
          simp only [pow_zero, mul_one] at h2
          exact h h2
        | succ n =>
          refine ⟨n, Nat.lt_of_succ_lt_succ hn, fun k => stage (k + 1), ?_, ?_, ?_, rfl⟩
          · have := (h1 0 (Nat.succ_pos n)).1
            rw [hs] at this
            simpa using this
          · intro k hk
            obtain ⟨e, h5⟩ := h1 (k + 1) (Nat.succ_lt_succ hk)
            refine ⟨?_, h5⟩
            simp only
            rw [e, pow_succ' _ k, ← mul_assoc]
          · rw [mul_assoc, ← pow_succ']
            exact h2

/-! ## Distances -/

theorem dist_norm (a b : Vec ℝ) : Periodic.dist a b = ‖(WithLp.toLp 2 (a - b) : EuclideanSpace ℝ (Fin 3))‖ := by
  rw [EuclideanSpace.norm_eq, Fin.sum_univ_three]
  simp [Periodic.dist]

theorem dist_triangle' (a b c : Vec ℝ) : Periodic.dist a c ≤ Periodic.dist a b + Periodic.dist b c := by
  rw [dist_norm, dist_norm, dist_norm]
  have : (WithLp.toLp 2 (a - c) : EuclideanSpace ℝ (Fin 3)) = WithLp.toLp 2 (a - b) + WithLp.toLp 2 (b - c) := by
    ext i; simp
  rw [this]
  exact norm_add_le _ _

theorem dist_comm' (a b : Vec ℝ) : Periodic.dist a b = Periodic.dist b a := by
  unfold Periodic.dist
  congr 1
  ring

theorem dist_nonneg' (a b : Vec ℝ) : 0 ≤ Periodic.dist a b := Real.sqrt_nonneg _

theorem norm_sum_list (ps : List (Particle ℝ)) (x : Vec ℝ) (hm : ∀ p ∈ ps, 0 ≤ p.mass) :
    ‖(ps.map fun p => p.mass • (WithLp.toLp 2 (p.pos - x) : EuclideanSpace ℝ (Fin 3))).sum‖ ≤ (ps.map fun p => p.mass * Periodic.dist p.pos x).sum := by
  induction ps with
  | nil => simp
  | cons p ps ih =>
    simp only [List.map_cons, List.sum_cons]
    refine (norm_add_le _ _).trans (add_le_add ?_ (ih fun q hq => hm q (List.mem_cons_of_mem _ hq)))
    rw [norm_smul, Real.norm_of_nonneg (hm p (by simp)), dist_norm]

/-- The centre of mass is not farther from a point than the particles are on average. -/
theorem dist_mean (ps : List (Particle ℝ)) (x : Vec ℝ) (hm : ∀ p ∈ ps, 0 ≤ p.mass) (hM : 0 < totalMass ps) :
    totalMass ps * Periodic.dist (weightedMean ps) x ≤ (ps.map fun p => p.mass * Periodic.dist p.pos x).sum := by
  refine le_trans (le_of_eq ?_) (norm_sum_list ps x hm)
  rw [dist_norm, ← Real.norm_of_nonneg hM.le, ← norm_smul]
  congr 1
  have e : ∀ i, (ps.map fun p => p.mass • (WithLp.toLp 2 (p.pos - x) : EuclideanSpace ℝ (Fin 3))).sum i =
      (ps.map fun p => p.mass * (p.pos i - x i)).sum := by
    intro i
    clear hm hM
    induction ps with
    | nil => simp
    | cons p ps ih => simp only [List.map_cons, List.sum_cons, PiLp.add_apply, ih]; simp
  ext i
  rw [e]
  have h2 : (ps.map fun p => p.mass * (p.pos i - x i)).sum = (ps.map fun p => p.mass * p.pos i).sum - totalMass ps * x i := by
    unfold totalMass
    clear hm hM e
    induction ps with
    | nil => simp
    | cons p ps ih => simp only [List.map_cons, List.sum_cons, ih]; ring
  rw [h2]
  simp only [PiLp.smul_apply, Pi.sub_apply, smul_eq_mul, weightedMean]
  rw [mul_sub, mul_div_cancel₀ _ hM.ne']

/-! ## The clump -/

theorem near_filter (x : Vec ℝ) (eps : ℝ) (ps : List (Particle ℝ)) (f : Particle ℝ → Bool) (h : ∀ p ∈ ps, Periodic.dist p.pos x ≤ eps → f p = true) :
    near x eps (ps.filter f) = near x eps ps := by
  unfold near
  rw [List.filter_filter]
  apply List.filter_congr
  intro p hp
  by_cases hd : Periodic.dist p.pos x ≤ eps
  · simp [hd, h p hp hd]
  · simp [hd]

theorem totalMass_filter_le (ps : List (Particle ℝ)) (f : Particle ℝ → Bool) (hm : ∀ p ∈ ps, 0 ≤ p.mass) : totalMass (ps.filter f) ≤ totalMass ps := by
  induction ps with
  | nil => simp
  | cons p ps ih =>
    have h1 := ih fun q hq => hm q (List.mem_cons_of_mem _ hq)
    have h2 := hm p (by simp)
    rw [List.filter_cons]
    unfold totalMass at h1 ⊢
    split <;> simp only [List.map_cons, List.sum_cons] <;> linarith

/-- The centre of mass is near the clump, compared with the size of the object. -/
theorem dist_clump (ps : List (Particle ℝ)) (x : Vec ℝ) (eps B : ℝ) (he : 0 ≤ eps) (hB : 0 ≤ B) (hm : ∀ p ∈ ps, 0 ≤ p.mass) (hM : 0 < totalMass ps)
    (hc : Clump x eps ps) (hb : ∀ p ∈ ps, Periodic.dist p.pos x ≤ B) : Periodic.dist (weightedMean ps) x ≤ eps + B / 4 := by
  have h1 := dist_mean ps x hm hM
  have h2 : (ps.map fun p => p.mass * Periodic.dist p.pos x).sum ≤
      totalMass (near x eps ps) * eps + (totalMass ps - totalMass (near x eps ps)) * B := by
    clear hc h1 hM
    induction ps with
    | nil => simp [near, totalMass]
    | cons p ps ih =>
      have h3 := ih (fun q hq => hm q (List.mem_cons_of_mem _ hq)) fun q hq => hb q (List.mem_cons_of_mem _ hq)
      have h4 := hm p (by simp)
      have h5 := hb p (by simp)
      unfold near at h3 ⊢
      rw [List.filter_cons]
      by_cases hd : Periodic.dist p.pos x ≤ eps
      · rw [if_pos (by simpa using hd)]
        unfold totalMass at h3 ⊢
        simp only [List.map_cons, List.sum_cons]
        nlinarith [mul_le_mul_of_nonneg_left hd h4]
      · rw [if_neg (by simpa using hd)]
        unfold totalMass at h3 ⊢
        simp only [List.map_cons, List.sum_cons]
        nlinarith [mul_le_mul_of_nonneg_left h5 h4]
  have h3 := totalMass_filter_le ps (fun p => decide (Periodic.dist p.pos x ≤ eps)) hm
  have h4 := hc.most
  change totalMass (near x eps ps) ≤ _ at h3
  have h5 : totalMass ps * Periodic.dist (weightedMean ps) x ≤ totalMass ps * (eps + B / 4) := by
    nlinarith [mul_le_mul_of_nonneg_right h3 he, mul_nonneg (sub_nonneg.2 h4) hB]
  exact le_of_mul_le_mul_left h5 hM

/-- The centre of mass is not farther away than the farthest particle. -/
theorem dist_mean_le (ps : List (Particle ℝ)) (x : Vec ℝ) (B : ℝ) (hm : ∀ p ∈ ps, 0 ≤ p.mass) (hM : 0 < totalMass ps)
    (hb : ∀ p ∈ ps, Periodic.dist p.pos x ≤ B) : Periodic.dist (weightedMean ps) x ≤ B := by
  have h1 := dist_mean ps x hm hM
  have h2 : (ps.map fun p => p.mass * Periodic.dist p.pos x).sum ≤ totalMass ps * B := by
    unfold totalMass
    rw [mul_comm, ← sum_map_mul_left']
    apply sum_map_le'
    intro p hp
    nlinarith [mul_le_mul_of_nonneg_left (hb p hp) (hm p hp)]
  exact le_of_mul_le_mul_left (h1.trans h2) hM

theorem Clump.ne {x : Vec ℝ} {eps : ℝ} {ps : List (Particle ℝ)} (h : Clump x eps ps) : ps ≠ [] := by
  rintro rfl
  have := h.five
  simp [near] at this

theorem mode_clump (fuel : Nat) (ps : List (Particle ℝ)) (rad : ℝ) (x : Vec ℝ) (eps : ℝ) (he : 0 ≤ eps) (hm : ∀ p ∈ ps, 0 < p.mass) (hc : Clump x eps ps)
    (hr : 0 ≤ rad) (hb : ∀ p ∈ ps, Periodic.dist p.pos x ≤ 2 * rad + 4 / 3 * eps) (v : Vec ℝ) (h : calcMode fuel ps rad = some v) :
    Periodic.dist v x ≤ 32 / 3 * eps := by
  induction fuel generalizing ps rad with
  | zero => cases h
  | succ fuel ih =>
    by_cases hrad : rad ≤ 14 / 3 * eps
    · obtain ⟨sub, hs, hn, rfl⟩ := calcMode_is_mean _ _ _ _ h
      have hne : sub ≠ [] := fun e => hc.ne (hn e)
      have hm' : ∀ p ∈ sub, 0 < p.mass := fun p hp => hm p (hs.subset hp)
      refine (dist_mean_le sub x (2 * rad + 4 / 3 * eps) (fun p hp => (hm' p hp).le) (totalMass_pos sub hne hm') fun p hp => hb p (hs.subset hp)).trans ?_
      linarith
    · rw [not_le] at hrad
      have hM := totalMass_pos ps hc.ne hm
      have hcom := dist_clump ps x eps (2 * rad + 4 / 3 * eps) he (by positivity) (fun p hp => (hm p hp).le) hM hc hb
      have hnear : near x eps (ps.filter fun p => decide (Periodic.dist p.pos (weightedMean ps) < rad)) = near x eps ps := by
        apply near_filter
        intro p _ hd
        rw [decide_eq_true_eq]
        have := dist_triangle' p.pos x (weightedMean ps)
        rw [dist_comm' x] at this
        linarith
      have hlen : 5 ≤ (ps.filter fun p => decide (Periodic.dist p.pos (weightedMean ps) < rad)).length := by
        refine hc.five.trans ?_
        rw [← hnear]
        exact List.length_filter_le _ _
      rw [calcMode_succ, if_neg (by omega)] at h
      refine ih _ _ (fun p hp => hm p (List.mem_of_mem_filter hp)) ⟨by rw [hnear]; exact hc.five, ?_⟩ (by positivity) ?_ h
      · rw [hnear]
        have := totalMass_filter_le ps (fun p => decide (Periodic.dist p.pos (weightedMean ps) < rad)) fun p hp => (hm p hp).le
        linarith [hc.most]
      · intro p hp
        have h1 := (List.mem_filter.1 hp).2
        rw [decide_eq_true_eq] at h1
        have := dist_triangle' p.pos (weightedMean ps) x
        norm_num
        linarith

/-! ## Objects -/

theorem le_max_list (l : List ℝ) (x : ℝ) (hx : x ∈ l) : x ≤ l.max?.getD 0 := by
  cases h : l.max? with
  | none => rw [List.max?_eq_none_iff] at h; simp [h] at hx
  | some m => exact (List.max?_eq_some_iff.1 h).2 x hx

theorem min_list_le (l : List ℝ) (x : ℝ) (hx : x ∈ l) : l.min?.getD 0 ≤ x := by
  cases h : l.min? with
  | none => rw [List.min?_eq_none_iff] at h; simp [h] at hx
  | some m => exact (List.min?_eq_some_iff.1 h).2 x hx

theorem within_extent (ps : List (Particle ℝ)) (p q : Particle ℝ) (hp : p ∈ ps) (hq : q ∈ ps) (a : Fin 3) : |p.pos a - q.pos a| ≤ axisExtent ps a := by
  have h : ∀ r ∈ ps, r.pos a ∈ ps.map fun p => p.pos a := fun r hr => List.mem_map.2 ⟨r, hr, rfl⟩
  have h1 := le_max_list _ _ (h p hp)
  have h2 := le_max_list _ _ (h q hq)
  have h3 := min_list_le _ _ (h p hp)
  have h4 := min_list_le _ _ (h q hq)
  unfold axisExtent
  rw [abs_le]
  constructor <;> linarith

theorem dist_extent (ps : List (Particle ℝ)) (p q : Particle ℝ) (hp : p ∈ ps) (hq : q ∈ ps) :
    Periodic.dist p.pos q.pos ≤ 2 * max (max (axisExtent ps 0) (axisExtent ps 1)) (axisExtent ps 2) := by
  have h : ∀ a, |p.pos a - q.pos a| ≤ max (max (axisExtent ps 0) (axisExtent ps 1)) (axisExtent ps 2) := by
    intro a
    refine (within_extent ps p q hp hq a).trans ?_
    fin_cases a <;> simp
  generalize max (max (axisExtent ps 0) (axisExtent ps 1)) (axisExtent ps 2) = D at *
  have hD : 0 ≤ D := (abs_nonneg _).trans (h 0)
  have h' : ∀ a, (p.pos a - q.pos a) ^ 2 ≤ D ^ 2 := fun a => by rw [← sq_abs]; exact pow_le_pow_left₀ (abs_nonneg _) (h a) 2
  unfold Periodic.dist
  rw [Real.sqrt_le_left (by positivity)]
  nlinarith [h' 0, h' 1, h' 2]

theorem Clump.nonneg {x : Vec ℝ} {eps : ℝ} {ps : List (Particle ℝ)} (h : Clump x eps ps) :
    0 ≤ eps ∧ ∃ q ∈ ps, Periodic.dist q.pos x ≤ eps := by
  obtain ⟨q, hq⟩ := List.exists_mem_of_length_pos (lt_of_lt_of_le (by norm_num) h.five)
  have := (List.mem_filter.1 hq).2
  rw [decide_eq_true_eq] at this
  exact ⟨(dist_nonneg' _ _).trans this, q, List.mem_of_mem_filter hq, this⟩

/-- C158. The centre used for the shapes of an object, with `CENTER = 'mode'`, is at the clump, if the object has one: if at least five particles, with at least three
quarters of the mass, lie within `eps` of `x`, then it is not farther from `x` than `32 / 3 * eps`, wherever the other particles are.  (Without periodicity, or in
a box with enough room for the object.) -/
theorem C158_shape_centre (choose : Nat → List Nat) (limit : Nat) (L : ℝ) (ps : List (Particle ℝ)) (hch : ∃ j ∈ choose ps.length, j < ps.length)
    (hm : ∀ p ∈ ps, 0 < p.mass) (h : RoomFor L ps) (x : Vec ℝ) (eps : ℝ) (hc : Clump x eps ps) (v : Vec ℝ)
    (hv : shapeCentre choose limit L .mode ps = some v) : Periodic.dist v x ≤ 32 / 3 * eps := by
  have hu := unwrapped_room choose L ps hch h
  unfold unwrapped at hu
  unfold shapeCentre at hv
  dsimp only at hv
  rw [hu] at hv
  obtain ⟨he, q, hq, hd⟩ := hc.nonneg
  refine mode_clump limit ps _ x eps he hm hc ?_ ?_ v hv
  · exact (abs_nonneg _).trans ((within_extent ps q q hq hq 2).trans (le_max_right _ _))
  · intro p hp
    have h1 := dist_triangle' p.pos q.pos x
    have h2 := dist_extent ps p q hp hq
    linarith

/-- C158. The same for the centre returned with masses and used for density profiles, if all particles lie within 2000 (Mpc/h) of `x`. -/
theorem C158_centre (choose : Nat → List Nat) (limit : Nat) (L : ℝ) (ps : List (Particle ℝ)) (hch : ∃ j ∈ choose ps.length, j < ps.length)
    (hm : ∀ p ∈ ps, 0 < p.mass) (h : RoomFor L ps) (x : Vec ℝ) (eps : ℝ) (hc : Clump x eps ps) (hb : ∀ p ∈ ps, Periodic.dist p.pos x ≤ 2000) (v : Vec ℝ)
    (hv : centreOf choose limit L .mode ps = some v) : Periodic.dist v x ≤ 32 / 3 * eps := by
  have hu := unwrapped_room choose L ps hch h
  unfold unwrapped at hu
  unfold centreOf at hv
  dsimp only at hv
  rw [hu] at hv
  have he := hc.nonneg.1
  refine mode_clump limit ps 1000 x eps he hm hc (by norm_num) ?_ v hv
  intro p hp
  have := hb p hp
  linarith

theorem Clump.scale {x : Vec ℝ} {eps : ℝ} {ps : List (Particle ℝ)} (h : Clump x eps ps) {f g : ℝ} (hf : 0 < f) (hg : 0 < g) :
    Clump (fun a => x a * f) (eps * f) (ps.map (scale f g)) := by
  have e : near (fun a => x a * f) (eps * f) (ps.map (Api.scale f g)) = (near x eps ps).map (Api.scale f g) := by
    unfold near
    rw [List.filter_map]
    congr 1
    apply List.filter_congr
    intro p _
    refine decide_eq_decide.2 ?_
    have := dist_scale hf p.pos x
    change Periodic.dist (fun a => p.pos a * f) (fun a => x a * f) ≤ _ ↔ _
    rw [this, mul_le_mul_iff_left₀ hf]
  refine ⟨by rw [e, List.length_map]; exact h.five, ?_⟩
  rw [e, totalMass_scale, totalMass_scale]
  have := mul_le_mul_of_nonneg_right h.most hg.le
  linarith

/-- C158. With `CENTER = 'mode'`, `getMassesCenters` finds clumps: if at least five particles of a selected object, with at least three quarters of its mass, lie
within `eps` of `x`, then the centre returned is not farther from `x` than `32 / 3 * eps`, wherever the other particles are (up to 2000 Mpc/h from `x`).  In physical
units; without periodicity, or in a box with enough room for the selected objects. -/
theorem C158_clump (c : Cfg ℝ) (hc : c.Pos) (xyz : List (Vec ℝ)) (masses : List ℝ) (box : ℝ) (objs : List (List Nat × ℝ)) (minPtcs : Int)
    (hmin : 1 ≤ minPtcs) (hs : PointCloud xyz masses objs) (o : Obj)
    (ho : construct c ⟨xyz, masses, .nested (objs.map Prod.fst), .array (objs.map Prod.snd), box, minPtcs, .mode⟩ = .ok o)
    (sel : List Int) (hsel : GoodSelection sel (resolved minPtcs objs).length) (hroom : Room box xyz masses objs minPtcs sel)
    (choose : Nat → List Nat) (hch : ∀ n, 0 < n → ∃ j ∈ choose n, j < n) (limit : Nat) (c' : Cfg ℝ) (hh : c'.h = c.h) (hc' : c'.Pos)
    (res : List (Vec ℝ × ℝ)) (hrun : GetMassesCenters c' choose limit o sel (.ok res))
    (k : Nat) (z : Int) (obj : List Nat × ℝ) (hk : sel[k]? = some z) (hobj : (resolved minPtcs objs)[z.toNat]? = some obj)
    (x : Vec ℝ) (eps : ℝ) (hclump : Clump x eps (particlesOf xyz masses obj.1))
    (hb : ∀ p ∈ particlesOf xyz masses obj.1, Periodic.dist p.pos x * c.inL ≤ 2000 * mpch c.h) :
    ∃ v, res[k]? = some v ∧ Periodic.dist (fun a => v.1 a * c'.outL) (fun a => x a * c.inL) ≤ 32 / 3 * (eps * c.inL) := by
  obtain ⟨hbox, hcen, parts, r200, h1, h2, h3, h4, h5⟩ := prepared_of c xyz masses box objs minPtcs hmin .mode hs.lengths hs.objects hs.exist
    o ho sel hsel
  have hfp : 0 < c.inL / mpch c.h := div_pos hc.inL (mpch_pos hc.h)
  have hgp : 0 < c.inM / msunh10 c.h := div_pos hc.inM (msunh10_pos hc.h)
  have hout := getMassesCenters_fn c' choose limit o sel parts h1 _ hrun
  unfold massesOf at hout
  split at hout
  · cases hout
  · next xs hxs =>
    have hout := Except.ok.inj hout
    obtain ⟨hl, hg⟩ := mapM_some_get _ _ _ hxs
    have hp := (List.getElem?_zip_eq_some.1 (h5 k z obj hk hobj)).1
    obtain ⟨y, hy, hF⟩ := hg k _ hp
    obtain ⟨v, hv, rfl⟩ := Option.map_eq_some_iff.1 hF
    have hne := hclump.ne
    have hm : ∀ p ∈ (particlesOf xyz masses obj.1).map (scale (c.inL / mpch c.h) (c.inM / msunh10 c.h)), 0 < p.mass := by
      intro p hp
      obtain ⟨q, hq, rfl⟩ := List.mem_map.1 hp
      exact mul_pos (hs.masses_pos _ (mem_particlesOf hq).2) hgp
    have hS := roomFor_scale box _ (c.inM / msunh10 c.h) hfp _ (room_for masses objs minPtcs sel box xyz hroom z (List.mem_of_getElem? hk) obj hobj)
    have hI := inside_for c hc masses objs minPtcs sel box xyz hroom (c.inM / msunh10 c.h) obj.1
    rw [← hbox] at hS hI
    have hrec := recentre_inside choose hch limit _ _ _ (by simpa using hne) hm hS hI v hv
    rw [hcen] at hv
    have hd := C158_centre choose limit o.box _ (hch _ (List.length_pos_iff.2 (by simpa using hne))) hm hS _ _ (hclump.scale hfp hgp) (by
      intro p hp
      obtain ⟨q, hq, rfl⟩ := List.mem_map.1 hp
      have := hb q hq
      change Periodic.dist (fun a => q.pos a * _) _ ≤ _
      rw [dist_scale hfp, ← mul_div_assoc, div_le_iff₀ (mpch_pos hc.h)]
      exact this) v hv
    refine ⟨_, by rw [hout, List.getElem?_map, hy]; rfl, ?_⟩
    have h8 := (mpch_pos hc.h).ne'
    have h9 := hc'.outL.ne'
    have hd' := mul_le_mul_of_nonneg_right hd (mpch_pos hc.h).le
    rw [← dist_scale (mpch_pos hc.h)] at hd'
    simp only [hrec]
    have e1 : (fun a => v a * (mpch c'.h / c'.outL) * c'.outL) = fun a => v a * mpch c.h := by
      funext a
      rw [hh, mul_assoc, div_mul_cancel₀ _ h9]
    have e2 : (fun a => x a * c.inL) = fun a => x a * (c.inL / mpch c.h) * mpch c.h := by
      funext a
      field_simp
    have e3 : 32 / 3 * (eps * c.inL) = 32 / 3 * (eps * (c.inL / mpch c.h)) * mpch c.h := by
      field_simp
    rw [e1, e2, e3]
    exact hd'

/-! ## Non-vacuity -/

/-- Six particles close to the origin, and two far away. -/
noncomputable def clumpExample : List (Particle ℝ) :=
  [⟨![0, 0, 0], 1⟩, ⟨![1 / 10, 0, 0], 1⟩, ⟨![0, 1 / 10, 0], 1⟩, ⟨![0, 0, 1 / 10], 1⟩, ⟨![-1 / 10, 0, 0], 1⟩, ⟨![0, -1 / 10, 0], 1⟩,
    ⟨![50, 0, 0], 1⟩, ⟨![50, 1, 0], 1⟩]

theorem clumpExample_clump : Clump 0 (1 / 10) clumpExample := by
  have h : near 0 (1 / 10) clumpExample = clumpExample.take 6 := by
    have d1 : ∀ a b c : ℝ, a ^ 2 + b ^ 2 + c ^ 2 ≤ 1 / 100 → decide (Periodic.dist ![a, b, c] 0 ≤ 1 / 10) = true := by
      intro a b c h
      rw [decide_eq_true_eq]
      unfold Periodic.dist
      rw [Real.sqrt_le_left (by norm_num)]
      simp
      linarith
    have d2 : ∀ a b c : ℝ, 1 < a → decide (Periodic.dist ![a, b, c] 0 ≤ 1 / 10) = false := by
      intro a b c h
      rw [decide_eq_false_iff_not]
      unfold Periodic.dist
      rw [Real.sqrt_le_left (by norm_num)]
      simp
      nlinarith [sq_nonneg b, sq_nonneg c]
    unfold near clumpExample
    simp only [List.filter_cons, List.filter_nil]
    rw [d1 0 0 0 (by norm_num), d1 _ 0 0 (by norm_num), d1 0 _ 0 (by norm_num), d1 0 0 _ (by norm_num), d1 (-1 / 10) 0 0 (by norm_num),
      d1 0 (-1 / 10) 0 (by norm_num), d2 50 0 0 (by norm_num), d2 50 1 0 (by norm_num)]
    simp
  refine ⟨by rw [h]; simp [clumpExample], ?_⟩
  rw [h]
  simp only [totalMass, clumpExample]
  norm_num

/-- The hypotheses can be met, and the centre of mass is not at the clump. -/
example : (∃ limit v, shapeCentre (fun _ => [0]) limit 0 .mode clumpExample = some v ∧ Periodic.dist v 0 ≤ 32 / 3 * (1 / 10)) ∧
    12 < Periodic.dist (weightedMean clumpExample) 0 := by
  have hm : ∀ p ∈ clumpExample, 0 < p.mass := by
    intro p hp
    simp only [clumpExample, List.mem_cons, List.not_mem_nil, or_false] at hp
    rcases hp with rfl | rfl | rfl | rfl | rfl | rfl | rfl | rfl <;> norm_num
  constructor
  · have h5 : NoFiveCoincide clumpExample := by
      intro sub hs hcon
      by_contra hlen
      obtain ⟨l, rfl⟩ : ∃ l, l = sub.map fun p => p.pos 0 + 2 * p.pos 1 + 4 * p.pos 2 := ⟨_, rfl⟩
      have hnd : (clumpExample.map fun p => p.pos 0 + 2 * p.pos 1 + 4 * p.pos 2).Nodup := by
        simp only [clumpExample, List.map_cons, List.map_nil]
        simp [Matrix.cons_val_two]
        norm_num
      have hnd' := hnd.sublist (hs.map _)
      match sub, hcon, hlen, hnd' with
      | p :: q :: r, hcon, _, hnd' =>
        rw [List.map_cons, List.map_cons, List.nodup_cons] at hnd'
        apply hnd'.1
        rw [hcon p (by simp) q (by simp)]
        simp
      | [], _, hlen, _ => simp at hlen
      | [p], _, hlen, _ => simp at hlen
    obtain ⟨limit, v, hv⟩ := C26_terminates_partial clumpExample h5
      (max (max (axisExtent clumpExample 0) (axisExtent clumpExample 1)) (axisExtent clumpExample 2))
    have hroom : RoomFor 0 clumpExample := .inl rfl
    have hch : ∃ j ∈ (fun _ => [0] : Nat → List Nat) clumpExample.length, j < clumpExample.length := ⟨0, by simp, by simp [clumpExample]⟩
    have hv' : shapeCentre (fun _ => [0]) limit 0 .mode clumpExample = some v := by
      have hu := unwrapped_room (fun _ => [0]) 0 clumpExample hch hroom
      unfold unwrapped at hu
      unfold shapeCentre
      dsimp only
      rw [hu]
      exact hv
    exact ⟨limit, v, hv', C158_shape_centre _ limit 0 clumpExample hch hm hroom 0 _ clumpExample_clump v hv'⟩
  · unfold Periodic.dist
    rw [Real.lt_sqrt (by norm_num)]
    have : weightedMean clumpExample 0 = 100 / 8 := by
      unfold weightedMean totalMass clumpExample
      norm_num
    rw [this]
    simp only [Pi.zero_apply]
    nlinarith [sq_nonneg (weightedMean clumpExample 1 - 0), sq_nonneg (weightedMean clumpExample 2 - 0)]

end Verif.Api
