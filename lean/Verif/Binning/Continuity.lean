import Verif.Binning.Kernel
import Verif.Binning.Props
import Mathlib.Analysis.SpecialFunctions.Pow.Continuity

/-!
# Density profiles of data which differ a little (C181)

`calcDensProfBruteForceSph`, `calcMenclsBruteForceSph` (helper_class.pyx:201-348) and the kernel-based profile (dens_profs_algos.pyx:274-279), see
Binning/Model.lean.
-/

namespace Verif.Binning

open Filter Topology

/-! ## Specification -/

/-- The particle with number `k`. -/
noncomputable def nth (ps : List (Particle ℝ)) (k : Nat) : Particle ℝ := ps.getD k ⟨0, 0⟩

/-- The objects `objs i`, each with centre and R200, approach the object `ps` with `center` and `r200`. -/
structure Approach {ι : Type} (F : Filter ι) (objs : ι → List (Particle ℝ)) (centers : ι → Vec ℝ) (r200s : ι → ℝ)
    (ps : List (Particle ℝ)) (center : Vec ℝ) (r200 : ℝ) : Prop where
  number : ∀ i, (objs i).length = ps.length
  pos : ∀ k, k < ps.length → ∀ j, Tendsto (fun i => (nth (objs i) k).pos j) F (𝓝 ((nth ps k).pos j))
  mass : ∀ k, k < ps.length → Tendsto (fun i => (nth (objs i) k).mass) F (𝓝 (nth ps k).mass)
  center : ∀ j, Tendsto (fun i => centers i j) F (𝓝 (center j))
  r200 : Tendsto r200s F (𝓝 r200)

/-! ## Proof -/

section

variable {ι : Type} {F : Filter ι} {objs : ι → List (Particle ℝ)} {centers : ι → Vec ℝ} {r200s : ι → ℝ}
  {ps : List (Particle ℝ)} {center : Vec ℝ} {r200 : ℝ}

theorem Approach.radius (h : Approach F objs centers r200s ps center r200) {k : Nat} (hk : k < ps.length) :
    Tendsto (fun i => Binning.radius (centers i) (nth (objs i) k)) F (𝓝 (Binning.radius center (nth ps k))) := by
  unfold Binning.radius
  exact (Real.continuous_sqrt.tendsto _).comp (((((h.center 0).sub (h.pos k hk 0)).pow 2).add (((h.center 1).sub (h.pos k hk 1)).pow 2)).add
    (((h.center 2).sub (h.pos k hk 2)).pow 2))

theorem nth_mem {l : List (Particle ℝ)} {k : Nat} (h : k < l.length) : nth l k ∈ l := by
  unfold nth
  rw [List.getD_eq_getElem?_getD, List.getElem?_eq_getElem h]
  exact List.getElem_mem h

theorem sum_nth (l : List (Particle ℝ)) (f : Particle ℝ → Bool) (g : Particle ℝ → ℝ) :
    ((l.filter f).map g).sum = ∑ k ∈ Finset.range l.length, if f (nth l k) then g (nth l k) else 0 := by
  unfold nth
  induction l with
  | nil => simp
  | cons p l ih =>
    rw [List.length_cons, Finset.sum_range_succ', List.filter_cons]
    simp only [List.getD_cons_succ, List.getD_cons_zero]
    rw [← ih]
    cases f p
    · simp
    · simp [add_comm]

/-- The mass between two radii, none of which is the radius of a particle. -/
theorem mass_near (h : Approach F objs centers r200s ps center r200) {los his : ι → ℝ} {lo hi : ℝ} (hlo : Tendsto los F (𝓝 lo))
    (hhi : Tendsto his F (𝓝 hi)) (hoff : ∀ p ∈ ps, radius center p ≠ lo ∧ radius center p ≠ hi) :
    Tendsto (fun i => massBetween (centers i) (objs i) (los i) (his i)) F (𝓝 (massBetween center ps lo hi)) := by
  unfold massBetween
  simp only [sum_nth, h.number]
  refine tendsto_finsetSum _ fun k hk => ?_
  rw [Finset.mem_range] at hk
  have hr := h.radius hk
  obtain ⟨h1, h2⟩ := hoff _ (nth_mem hk)
  have hev : ∀ᶠ i in F, ((los i ≤ radius (centers i) (nth (objs i) k) ∧ radius (centers i) (nth (objs i) k) < his i) ↔
      (lo ≤ radius center (nth ps k) ∧ radius center (nth ps k) < hi)) := by
    have e1 : ∀ᶠ i in F, (los i ≤ radius (centers i) (nth (objs i) k) ↔ lo ≤ radius center (nth ps k)) := by
      rcases lt_or_gt_of_ne h1 with hl | hg
      · filter_upwards [hr.eventually_lt hlo hl] with i hi
        exact iff_of_false (not_le.2 hi) (not_le.2 hl)
      · filter_upwards [hlo.eventually_lt hr hg] with i hi
        exact iff_of_true hi.le hg.le
    have e2 : ∀ᶠ i in F, (radius (centers i) (nth (objs i) k) < his i ↔ radius center (nth ps k) < hi) := by
      rcases lt_or_gt_of_ne h2 with hl | hg
      · filter_upwards [hr.eventually_lt hhi hl] with i hi
        exact iff_of_true hi hl
      · filter_upwards [hhi.eventually_lt hr hg] with i hi
        exact iff_of_false (not_lt.2 hi.le) (not_lt.2 hg.le)
    filter_upwards [e1, e2] with i a b using and_congr a b
  simp only [decide_eq_true_eq]
  by_cases hin : lo ≤ radius center (nth ps k) ∧ radius center (nth ps k) < hi
  · rw [if_pos hin]
    refine (h.mass k hk).congr' ?_
    filter_upwards [hev] with i hi
    rw [if_pos (hi.2 hin)]
  · rw [if_neg hin]
    refine tendsto_const_nhds.congr' ?_
    filter_upwards [hev] with i hi
    rw [if_neg fun hc => hin (hi.1 hc)]

/-- C181 (kernel-based). The kernel-based density of an object at a positive radius depends continuously on the positions and masses of its
particles, its centre and R200, and the radius, if no particle is exactly at the centre. -/
theorem C181_kernel (h : Approach F objs centers r200s ps center r200) (hr200 : 0 < r200) (hcen : ∀ p ∈ ps, p.pos ≠ center)
    {rs : ι → ℝ} {r : ℝ} (hr : 0 < r) (hrs : Tendsto rs F (𝓝 r)) :
    Tendsto (fun i => densKernel (r200s i) ((objs i).map fun p => (p.mass, radius (centers i) p)) (rs i)) F
      (𝓝 (densKernel r200 (ps.map fun p => (p.mass, radius center p)) r)) := by
  have hsum : ∀ (c : Vec ℝ) (R x : ℝ) (l : List (Particle ℝ)), densKernel R (l.map fun p => (p.mass, radius c p)) x =
      ∑ k ∈ Finset.range l.length, (nth l k).mass * kTilde x (radius c (nth l k)) (kernelWidth R (radius c (nth l k))) /
        kernelWidth R (radius c (nth l k)) ^ 3 := by
    intro c R x l
    rw [densKernel_eq_sum, List.map_map]
    have := sum_nth l (fun _ => true) fun p => p.mass * kTilde x (radius c p) (kernelWidth R (radius c p)) / kernelWidth R (radius c p) ^ 3
    simpa [Function.comp_def] using this
  simp only [hsum, h.number]
  refine tendsto_finsetSum _ fun k hk => ?_
  rw [Finset.mem_range] at hk
  have hd : 0 < radius center (nth ps k) := by
    refine Real.sqrt_pos.2 ?_
    by_contra hc
    have h0 := sq_nonneg (center 0 - (nth ps k).pos 0)
    have h1 := sq_nonneg (center 1 - (nth ps k).pos 1)
    have h2 := sq_nonneg (center 2 - (nth ps k).pos 2)
    refine hcen _ (nth_mem hk) (funext fun j => ?_)
    have z0 : center 0 - (nth ps k).pos 0 = 0 := pow_eq_zero_iff two_ne_zero |>.1 (by linarith)
    have z1 : center 1 - (nth ps k).pos 1 = 0 := pow_eq_zero_iff two_ne_zero |>.1 (by linarith)
    have z2 : center 2 - (nth ps k).pos 2 = 0 := pow_eq_zero_iff two_ne_zero |>.1 (by linarith)
    fin_cases j
    · exact (sub_eq_zero.1 z0).symm
    · exact (sub_eq_zero.1 z1).symm
    · exact (sub_eq_zero.1 z2).symm
  have hR := h.radius hk
  have hw := kernelWidth_pos r200 _ hr200 hd
  have hW : Tendsto (fun i => kernelWidth (r200s i) (radius (centers i) (nth (objs i) k))) F (𝓝 (kernelWidth r200 (radius center (nth ps k)))) := by
    unfold kernelWidth
    refine (h.r200.const_mul _).mul (Tendsto.rpow_const (hR.div (h.r200.const_mul _) (by positivity)) (.inr (by norm_num)))
  refine Tendsto.div ((h.mass k hk).mul ?_) (hW.pow 3) (by positivity)
  unfold kTilde
  refine (((hrs.mul hR).div (hW.pow 2) (by positivity)).inv₀ (by positivity) |>.const_mul _).mul ?_
  refine Tendsto.sub ?_ ?_
  · exact (Real.continuous_exp.tendsto _).comp ((((hR.sub hrs).pow 2).neg).div ((hW.pow 2).const_mul 2) (by positivity))
  · exact (Real.continuous_exp.tendsto _).comp ((((hR.add hrs).pow 2).neg).div ((hW.pow 2).const_mul 2) (by positivity))

/-- C181 (binned), the part that holds. If no particle is exactly on an edge of the bins, the density in each bin depends continuously on the
positions and masses of the particles, the centre and R200. Missing: particles on an edge, see `C181_binned_refuted`. -/
theorem C181_binned_partial (h : Approach F objs centers r200s ps center r200) (hr200 : 0 < r200) (edges : List ℝ) (hedges : GoodEdges edges)
    (hoff : ∀ p ∈ ps, ∀ e ∈ edges, radius center p ≠ e * r200) (shells : ι → List Nat) (shell : List Nat)
    (hshells : ∀ i, (objs i).length ≤ (shells i).length) (hshell : ps.length ≤ shell.length) (k : Nat) :
    Tendsto (fun i => at0 (densProfSph (objs i) (centers i) (r200s i) edges (shells i)).1 k) F
      (𝓝 (at0 (densProfSph ps center r200 edges shell).1 k)) := by
  have hpos : ∀ᶠ i in F, 0 < r200s i := h.r200.eventually_const_lt hr200
  rw [C27_profile ps center r200 hr200.le edges hedges.1 shell hshell]
  have hcongr : (fun i => at0 ((bins edges).map fun e => massBetween (centers i) (objs i) (e.1 * r200s i) (e.2 * r200s i) /
      shellVolume (e.1 * r200s i) (e.2 * r200s i)) k) =ᶠ[F]
      fun i => at0 (densProfSph (objs i) (centers i) (r200s i) edges (shells i)).1 k := by
    filter_upwards [hpos] with i hi
    rw [C27_profile (objs i) (centers i) (r200s i) hi.le edges hedges.1 (shells i) (hshells i)]
  refine Tendsto.congr' hcongr ?_
  unfold at0
  simp only [List.getElem?_map]
  rcases hb : (bins edges)[k]? with _ | e
  · exact tendsto_const_nhds
  · simp only [Option.map_some, Option.getD_some]
    have hmem := List.mem_of_getElem? hb
    unfold bins at hmem
    have m1 := (List.of_mem_zip hmem).1
    have m2 := List.mem_of_mem_tail (List.of_mem_zip hmem).2
    have l1 := h.r200.const_mul e.1
    have l2 := h.r200.const_mul e.2
    have hlt : e.1 < e.2 := by
      unfold bins at hb
      have hk := hb
      rw [List.getElem?_zip_eq_some] at hk
      obtain ⟨g1, g2⟩ := hk
      rw [List.getElem?_tail] at g2
      obtain ⟨q1, q2⟩ := List.getElem?_eq_some_iff.1 g1
      obtain ⟨q3, q4⟩ := List.getElem?_eq_some_iff.1 g2
      rw [← q2, ← q4]
      exact List.pairwise_iff_getElem.1 hedges.2 k (k + 1) q1 q3 (by omega)
    refine Tendsto.div (mass_near h l1 l2 fun p hp => ⟨hoff p hp _ m1, hoff p hp _ m2⟩) ?_ ?_
    · unfold shellVolume
      exact ((l2.pow 3).sub (l1.pow 3)).const_mul _
    · unfold shellVolume
      have h0 := hedges.1 _ m1
      have : (e.1 * r200) ^ 3 < (e.2 * r200) ^ 3 :=
        pow_lt_pow_left₀ (mul_lt_mul_of_pos_right hlt hr200) (mul_nonneg h0 hr200.le) (by norm_num)
      have hpi := Real.pi_pos
      have : 0 < (e.2 * r200) ^ 3 - (e.1 * r200) ^ 3 := by linarith
      positivity

theorem menclSph_within (ps : List (Particle ℝ)) (center : Vec ℝ) (r200 : ℝ) (hr : 0 ≤ r200) (radii : List ℝ) (h0 : ∀ r ∈ radii, 0 ≤ r)
    (shell : List Nat) (hs : ps.length ≤ shell.length) :
    (menclSph ps center r200 radii shell).1 = radii.map fun r => massBetween center ps (-1) (r * r200) := by
  rw [menclSph_eq ps center r200 radii shell hs]
  apply List.map_congr_left
  intro r hmem
  unfold massBetween qBall
  congr 2
  apply List.filter_congr
  intro p _
  rw [decide_eq_decide, dist2_lt_iff center p _ (mul_nonneg (h0 r hmem) hr)]
  have : 0 ≤ Binning.radius center p := Real.sqrt_nonneg _
  exact ⟨fun h => ⟨by linarith, h⟩, fun h => h.2⟩

/-- C181 (enclosed masses), the part that holds. The mass enclosed by radii none of which is the radius of a particle depends continuously on the
positions and masses of the particles, the centre and R200. -/
theorem C181_enclosed_partial (h : Approach F objs centers r200s ps center r200) (hr200 : 0 < r200) (radii : List ℝ) (hradii : ∀ r ∈ radii, 0 ≤ r)
    (hoff : ∀ p ∈ ps, ∀ r ∈ radii, radius center p ≠ r * r200) (shells : ι → List Nat) (shell : List Nat)
    (hshells : ∀ i, (objs i).length ≤ (shells i).length) (hshell : ps.length ≤ shell.length) (k : Nat) :
    Tendsto (fun i => at0 (menclSph (objs i) (centers i) (r200s i) radii (shells i)).1 k) F
      (𝓝 (at0 (menclSph ps center r200 radii shell).1 k)) := by
  have hpos : ∀ᶠ i in F, 0 < r200s i := h.r200.eventually_const_lt hr200
  rw [menclSph_within ps center r200 hr200.le radii hradii shell hshell]
  have hcongr : (fun i => at0 (radii.map fun r => massBetween (centers i) (objs i) (-1) (r * r200s i)) k) =ᶠ[F]
      fun i => at0 (menclSph (objs i) (centers i) (r200s i) radii (shells i)).1 k := by
    filter_upwards [hpos] with i hi
    rw [menclSph_within (objs i) (centers i) (r200s i) hi.le radii hradii (shells i) (hshells i)]
  refine Tendsto.congr' hcongr ?_
  unfold at0
  simp only [List.getElem?_map]
  rcases hb : radii[k]? with _ | r
  · exact tendsto_const_nhds
  · simp only [Option.map_some, Option.getD_some]
    refine mass_near h tendsto_const_nhds (h.r200.const_mul r) fun p hp => ⟨?_, hoff p hp _ (List.mem_of_getElem? hb)⟩
    have : 0 ≤ Binning.radius center p := Real.sqrt_nonneg _
    intro hc
    linarith

end

/-- C181. However small a change: a particle moved by no more than `η` across an edge takes all its mass from one bin to the next. -/
theorem C181_binned_refuted (η : ℝ) (hη : 0 < η) :
    ∃ (x x' : Vec ℝ) (shell : List Nat), (∀ j, |x' j - x j| ≤ η) ∧
      (densProfSph [⟨x, 1⟩] 0 1 [1, 2, 3] shell).1 = [1 / shellVolume 1 2, 0] ∧
      (densProfSph [⟨x', 1⟩] 0 1 [1, 2, 3] shell).1 = [0, 1 / shellVolume 2 3] := by
  obtain ⟨t, t0, t1, tη⟩ : ∃ t : ℝ, 0 < t ∧ t ≤ 1 / 2 ∧ t ≤ η := ⟨min (1 / 2) η, by positivity, min_le_left _ _, min_le_right _ _⟩
  have hrad : ∀ y : ℝ, 0 ≤ y → radius 0 ⟨![y, 0, 0], 1⟩ = y := by
    intro y hy
    unfold radius
    simp [Real.sqrt_sq hy]
  have hprof : ∀ y : ℝ, 0 ≤ y → (densProfSph [⟨![y, 0, 0], 1⟩] 0 1 [1, 2, 3] [0]).1 =
      [(if 1 ≤ y ∧ y < 2 then 1 else 0) / shellVolume 1 2, (if 2 ≤ y ∧ y < 3 then 1 else 0) / shellVolume 2 3] := by
    intro y hy
    rw [C27_profile _ _ _ zero_le_one [1, 2, 3] (by intro e he; simp at he; rcases he with rfl | rfl | rfl <;> norm_num) [0] (by simp)]
    simp only [bins, List.tail_cons, List.zip_cons_cons, List.zip_nil_right, List.map_cons, List.map_nil, mul_one]
    have hm : ∀ lo hi : ℝ, massBetween 0 [⟨![y, 0, 0], 1⟩] lo hi = if lo ≤ y ∧ y < hi then 1 else 0 := by
      intro lo hi
      unfold massBetween
      rw [List.filter_singleton, hrad y hy]
      by_cases h : lo ≤ y ∧ y < hi
      · simp [h]
      · rw [if_neg h]; simp [h]
    rw [hm, hm]
  refine ⟨![2 - t, 0, 0], ![2, 0, 0], [0], ?_, ?_, ?_⟩
  · intro j
    fin_cases j
    · show |2 - (2 - t)| ≤ η
      rw [abs_of_pos (by linarith)]; linarith
    · show |(0 : ℝ) - 0| ≤ η
      rw [sub_self, abs_zero]; exact hη.le
    · show |(0 : ℝ) - 0| ≤ η
      rw [sub_self, abs_zero]; exact hη.le
  · rw [hprof _ (by linarith), if_pos ⟨by linarith, by linarith⟩, if_neg (by rintro ⟨h, -⟩; linarith), zero_div]
  · rw [hprof 2 (by norm_num), if_neg (by rintro ⟨-, h⟩; linarith), if_pos ⟨le_rfl, by norm_num⟩, zero_div]

/-- The hypotheses of `C181_kernel` and `C181_binned_partial` are met: a particle of mass 1 approaches the position (3/2, 0, 0). -/
example : Approach (atTop : Filter ℕ) (fun i => [⟨![3 / 2 + 1 / ((i : ℝ) + 1), 0, 0], 1⟩]) (fun _ => 0) (fun _ => 1) [⟨![3 / 2, 0, 0], 1⟩] 0 1 ∧
    GoodEdges [1, 2] ∧ (∀ p ∈ [(⟨![3 / 2, 0, 0], 1⟩ : Particle ℝ)], p.pos ≠ 0 ∧ ∀ e ∈ [(1 : ℝ), 2], radius 0 p ≠ e * 1) := by
  refine ⟨⟨fun i => rfl, ?_, ?_, fun j => tendsto_const_nhds, tendsto_const_nhds⟩, ⟨?_, ?_⟩, ?_⟩
  · intro k hk j
    obtain rfl : k = 0 := by simpa using hk
    fin_cases j
    · have : Tendsto (fun i : ℕ => (3 / 2 : ℝ) + 1 / ((i : ℝ) + 1)) atTop (𝓝 (3 / 2 + 0)) :=
        tendsto_one_div_add_atTop_nhds_zero_nat.const_add _
      rw [add_zero] at this
      exact this
    · exact tendsto_const_nhds
    · exact tendsto_const_nhds
  · intro k hk
    obtain rfl : k = 0 := by simpa using hk
    exact tendsto_const_nhds
  · intro e he
    simp at he
    rcases he with rfl | rfl <;> norm_num
  · simp
  · intro p hp
    rw [List.mem_singleton] at hp
    subst hp
    have hr : radius 0 ⟨![3 / 2, 0, 0], 1⟩ = 3 / 2 := by
      unfold radius
      simp
      exact Real.sqrt_sq (by norm_num)
    refine ⟨fun h => ?_, fun e he => ?_⟩
    · have := congrFun h 0
      simp at this
    · rw [hr]
      simp at he
      rcases he with rfl | rfl <;> norm_num

end Verif.Binning
