import Verif.Mock.Recover
import Verif.Binning.Props
import Mathlib.Analysis.SpecialFunctions.Integrals.Basic

/-!
# Density profiles of mock halos (C178)

Halos generated with spherical shells (`genHalo`, mock_halo_gen.py:15-116, see Mock/Model.lean and Mock/Enclosed.lean), and the density profile which
is estimated of them (`calcDensProfBruteForceSph`, helper_class.pyx:204-241, see Binning/Model.lean) about their centre.
-/

namespace Verif.Mock

open MeasureTheory ProbabilityTheory Filter Topology
open Verif (Vec Particle)
open Verif.Binning (densProfSph massBetween massWithin shellVolume bins radius GoodEdges)

/-! ## Model -/

/-- The arrays of positions and masses which are handed to the class for density profiles: all particles have the mass returned by `genHalo`. -/
noncomputable def particlesOfHalo (h : Halo) (draws : Nat → Nat → Draw) : List (Particle ℝ) :=
  (haloPoints h draws).map fun q => ⟨![q.1, q.2.1, q.2.2], h.massPtc⟩

/-! ## Specification -/

/-- Spherical shells: positive, strictly increasing radii beyond `1e-8`, at least two. -/
structure Spheres (s : Axes) (n : Nat) : Prop where
  la : s.a.length = n
  two : 2 ≤ n
  sb : s.b = s.a
  sc : s.c = s.a
  start : ∀ x ∈ s.a, start < x
  sorted : s.a.Pairwise (· < ·)

/-- The density models up to a factor: Einasto, the model with slopes `alpha, beta, gamma`, Hernquist, and Navarro, Frenk and White. -/
noncomputable def modelShape : Prof → ℝ → ℝ
  | .einasto alpha rs, r => Real.exp (-2 / alpha * ((r / rs) ^ alpha - 1))
  | .abg alpha beta gamma rs, r => 1 / ((r / rs) ^ gamma * (1 + (r / rs) ^ alpha) ^ ((beta - gamma) / alpha))
  | .hernquist rs, r => 1 / (r / rs * (1 + r / rs) ^ 3)
  | .nfw rs, r => 1 / (r / rs * (1 + r / rs) ^ 2)

/-- Mass of the model per radius, normalised such that the mass out to the last radius (from `1e-8`) is `tot`. -/
noncomputable def modelPerRadius (tot : ℝ) (p : Prof) (s : Axes) (r : ℝ) : ℝ :=
  tot / (∫ x in start..s.a.getLastD 0, 4 * Real.pi * x ^ 2 * modelShape p x) * (4 * Real.pi * r ^ 2 * modelShape p r)

/-- Mean density of the model between two radii. -/
noncomputable def modelMean (tot : ℝ) (p : Prof) (s : Axes) (lo hi : ℝ) : ℝ :=
  (∫ r in lo..hi, modelPerRadius tot p s r) / shellVolume lo hi

/-- Mass of the model in shell `k` (the innermost one begins at `1e-8`). -/
noncomputable def modelShell (tot : ℝ) (p : Prof) (s : Axes) (k : Nat) : ℝ :=
  ∫ r in (start :: s.a).getD k 0..s.a.getD k 0, modelPerRadius tot p s r

/-- Fraction of the thickness of shell `k` which is within the radius `r`. -/
noncomputable def thicknessWithin (s : Axes) (k : Nat) (r : ℝ) : ℝ :=
  max 0 (min 1 ((r - (0 :: s.a).getD k 0) / (s.a.getD k 0 - (0 :: s.a).getD k 0)))

/-- The mass of every shell spread evenly over its thickness: the mass within the radius `r`. -/
noncomputable def spreadMass (tot : ℝ) (p : Prof) (s : Axes) (n : Nat) (r : ℝ) : ℝ :=
  ∑ k ∈ Finset.range n, modelShell tot p s k * thicknessWithin s k r

/-- The random numbers of shell `k` are measurable, distributed as `np.random.uniform(k/n, (k+1)/n)`, and independent within the shell. -/
structure RandomShells {Ω : Type} [MeasurableSpace Ω] (P : Measure Ω) (n : Nat) (draws : Nat → Nat → Ω → Draw) : Prop where
  meas : ∀ k i, Measurable fun ω => (draws k i ω).rand
  law : ∀ k, k < n → ∀ i, P.map (fun ω => (draws k i ω).rand) =
    (n : ENNReal) • volume.restrict (Set.Ico ((k : ℝ) / n) ((k + 1 : ℝ) / n))
  indep : ∀ k, k < n → iIndepFun (fun i ω => (draws k i ω).rand) P

/-- The density estimated in bin `j`. -/
noncomputable def estimated (h : Halo) (draws : Nat → Nat → Draw) (r200 : ℝ) (edges : List ℝ) (scratch : List Nat) (j : Nat) : ℝ :=
  (densProfSph (particlesOfHalo h draws) 0 r200 edges scratch).1.getD j 0

/-! ## Proof -/

theorem shape_integrand0 (p : Prof) : (fun r : ℝ => 4 * Real.pi * r ^ 2 * modelShape p r) = integrand0 p := by
  funext r
  cases p <;> simp only [modelShape, integrand0, mul_one_div]

theorem perRadius_eq (tot : ℝ) (p : Prof) (s : Axes) (r : ℝ) :
    modelPerRadius tot p s r = tot / (∫ x in start..s.a.getLastD 0, integrand0 p x) * integrand0 p r := by
  unfold modelPerRadius
  rw [← shape_integrand0 p]

theorem Spheres.shells {s : Axes} {n : Nat} (h : Spheres s n) : Shells s n := by
  have hp : ∀ x ∈ s.a, 0 < x := fun x hx => start_pos.trans (h.start x hx)
  have hs : s.a.Pairwise (· ≤ ·) := h.sorted.imp fun h => le_of_lt h
  exact ⟨h.la, by rw [h.sb, h.la], by rw [h.sc, h.la], hp, by rw [h.sb]; exact hp, by rw [h.sc]; exact hp, hs, by rw [h.sb]; exact hs,
    by rw [h.sc]; exact hs⟩

/-- With enough particles nothing is merged. -/
theorem axes_kept {tot res : ℝ} {p : Prof} {s : Axes} {h : Halo} (hg : genHalo tot res p s = .ok h) {a0 a1 : ℝ} {l : List ℝ}
    (ha : s.a = a0 :: a1 :: l) (hN : 1 ≤ res * quad (integrand h.rho p) a0 a1 / tot) : h.axes = s := by
  have hrho : h.rho = tot / quad (integrand0 p) start (s.a.getLastD 0) := by
    obtain ⟨aLast, -, -, -, -, -, hl, hr, -⟩ := genHalo_ok hg
    rw [hr, List.getLastD_eq_getLast?, hl]
    rfl
  unfold genHalo at hg
  have hl : s.a.getLast? = some (s.a.getLastD 0) := by
    rw [List.getLastD_eq_getLast?, ha, List.getLast?_cons]
    rfl
  rw [hl] at hg
  dsimp only at hg
  rw [← hrho] at hg
  have hf : firstCount (quad (integrand h.rho p)) res tot s.a = .ok (pyRound (res * quad (integrand h.rho p) a0 a1 / tot)) := by
    rw [ha]; rfl
  rw [hf] at hg
  have hne : pyRound (res * quad (integrand h.rho p) a0 a1 / tot) ≠ 0 := by
    intro h0
    have := pyRound_close (res * quad (integrand h.rho p) a0 a1 / tot)
    rw [h0, abs_le] at this
    have := this.1
    push_cast at this
    linarith
  dsimp only at hg
  rw [coarsenLoop, if_neg hne] at hg
  dsimp only at hg
  split at hg
  · split at hg
    · cases hg
    · have := Except.ok.inj hg
      rw [← this]
  · cases hg

theorem rho_eq {tot res : ℝ} {p : Prof} {s : Axes} {h : Halo} (hg : genHalo tot res p s = .ok h) (r : ℝ) :
    integrand h.rho p r = modelPerRadius tot p s r := by
  obtain ⟨aLast, -, -, -, -, -, hl, hr, -⟩ := genHalo_ok hg
  rw [integrand_eq, hr]
  rw [perRadius_eq, List.getLastD_eq_getLast?, hl]
  rfl

theorem quad_eq {tot res : ℝ} {p : Prof} {s : Axes} {h : Halo} (hg : genHalo tot res p s = .ok h) (lo hi : ℝ) :
    quad (integrand h.rho p) lo hi = ∫ r in lo..hi, modelPerRadius tot p s r := by
  unfold quad
  congr 1
  funext r
  exact rho_eq hg r

section

variable {tot : ℝ} (htot : 0 < tot) {p : Prof} (hp : p.Pos) {s : Axes} {n : Nat} (hs : Spheres s n)
include htot hp hs

omit htot hp in
theorem last_gt : start < s.a.getLastD 0 := by
  have hla := hs.la
  have htwo := hs.two
  have hne : s.a ≠ [] := by intro h; rw [h] at hla; simp at hla; omega
  rw [List.getLastD_eq_getLast?, List.getLast?_eq_some_getLast hne]
  exact hs.start _ (List.getLast_mem hne)

theorem integral_pos {lo hi : ℝ} (h1 : 0 < lo) (h2 : lo < hi) : 0 < ∫ r in lo..hi, modelPerRadius tot p s r := by
  simp only [perRadius_eq]
  rw [intervalIntegral.integral_const_mul]
  exact mul_pos (div_pos htot (quad0_pos hp start_pos (last_gt hs))) (quad0_pos hp h1 h2)

omit htot hs in
theorem integral_add {x y z : ℝ} (hx : 0 < x) (hy : 0 < y) (hz : 0 < z) :
    (∫ r in x..y, modelPerRadius tot p s r) + (∫ r in y..z, modelPerRadius tot p s r) = ∫ r in x..z, modelPerRadius tot p s r := by
  simp only [perRadius_eq]
  rw [intervalIntegral.integral_const_mul, intervalIntegral.integral_const_mul, intervalIntegral.integral_const_mul, ← mul_add]
  congr 1
  exact quad0_add hp hx hy hz

omit htot hp in
theorem lower_lt {k : Nat} (hk : k < n) : start ≤ (start :: s.a).getD k 0 ∧ (start :: s.a).getD k 0 < s.a.getD k 0 := by
  have hla := hs.la
  cases k with
  | zero =>
    simp only [List.getD_cons_zero]
    refine ⟨le_rfl, ?_⟩
    rw [List.getD_eq_getElem _ _ (by omega)]
    exact hs.start _ (List.getElem_mem _)
  | succ k =>
    simp only [List.getD_cons_succ]
    rw [List.getD_eq_getElem _ _ (by omega), List.getD_eq_getElem _ _ (by omega)]
    exact ⟨(hs.start _ (List.getElem_mem _)).le, List.pairwise_iff_getElem.mp hs.sorted k (k + 1) (by omega) (by omega) (by omega)⟩

theorem modelShell_pos {k : Nat} (hk : k < n) : 0 < modelShell tot p s k := by
  obtain ⟨h1, h2⟩ := lower_lt hs hk
  exact integral_pos htot hp hs (start_pos.trans_le h1) h2

/-- At a surface the mass spread evenly is the mass of the model. -/
theorem spread_surface {k : Nat} (hk : k < n) : spreadMass tot p s n (s.a.getD k 0) = ∫ r in start..s.a.getD k 0, modelPerRadius tot p s r := by
  have hla := hs.la
  have hlt := fun j (hj : j < n) => inner_lt_outer s n hs.shells hs.sorted j hj
  have hmono : ∀ i j, i ≤ j → j < n → s.a.getD i 0 ≤ s.a.getD j 0 := fun i j hij hj => getD_mono hs.shells.sa hij (by omega)
  have hone : ∀ j, j ≤ k → thicknessWithin s j (s.a.getD k 0) = 1 := by
    intro j hj
    have := hlt j (by omega)
    unfold thicknessWithin
    rw [min_eq_left, max_eq_right zero_le_one]
    rw [one_le_div (by linarith [this.2])]
    linarith [hmono j k hj hk]
  have hzero : ∀ j, k < j → j < n → thicknessWithin s j (s.a.getD k 0) = 0 := by
    intro j hj hjn
    have := hlt j hjn
    obtain ⟨i, rfl⟩ : ∃ i, j = i + 1 := ⟨j - 1, by omega⟩
    simp only [List.getD_cons_succ] at this
    unfold thicknessWithin
    simp only [List.getD_cons_succ]
    rw [max_eq_left]
    refine (min_le_right _ _).trans ?_
    exact div_nonpos_of_nonpos_of_nonneg (by linarith [hmono k i (by omega) (by omega)]) (by linarith [this.2])
  have hsplit : spreadMass tot p s n (s.a.getD k 0) = ∑ j ∈ Finset.range (k + 1), modelShell tot p s j := by
    unfold spreadMass
    have e : Finset.range (k + 1) ⊆ Finset.range n := Finset.range_subset_range.2 (by omega)
    rw [← Finset.sum_subset e]
    · apply Finset.sum_congr rfl
      intro j hj
      rw [hone j (by simpa using Nat.lt_succ_iff.1 (Finset.mem_range.1 hj)), mul_one]
    · intro j hj hj'
      rw [hzero j (by simpa using hj') (by simpa using hj), mul_zero]
  rw [hsplit]
  clear hsplit hone hzero
  induction k with
  | zero => simp [modelShell]
  | succ k ih =>
    rw [Finset.sum_range_succ, ih (by omega)]
    unfold modelShell
    simp only [List.getD_cons_succ]
    have h1 := lower_lt hs (by omega : k < n)
    have h2 := lower_lt hs hk
    exact integral_add hp start_pos (start_pos.trans_le (h1.1.trans h1.2.le)) (start_pos.trans_le (h2.1.trans h2.2.le))

end

/-! ### Numbers of particles -/

/-- The particles with a property, shell by shell. -/
theorem filter_shells (f : Nat → Nat → ℝ × ℝ × ℝ) (Q : ℝ × ℝ × ℝ → Bool) (l : List ℤ) (m : Nat) :
    ((((l.zipIdx m).map fun nk => (List.range nk.1.toNat).map fun i => f nk.2 i).flatten.filter Q).length : ℝ) =
      ∑ k ∈ Finset.range l.length, ∑ i ∈ Finset.range (l.getD k 0).toNat, if Q (f (m + k) i) then (1 : ℝ) else 0 := by
  induction l generalizing m with
  | nil => simp
  | cons x l ih =>
    rw [List.zipIdx_cons, List.map_cons, List.flatten_cons, List.filter_append, List.length_append, Nat.cast_add, ih, List.length_cons,
      Finset.sum_range_succ', add_comm]
    congr 1
    · apply Finset.sum_congr rfl
      intro k _
      simp only [List.getD_cons_succ]
      rw [show m + 1 + k = m + (k + 1) by omega]
    · simp only [List.getD_cons_zero, add_zero]
      generalize x.toNat = c
      induction c with
      | zero => simp
      | succ c ihc =>
        rw [List.range_succ, List.map_append, List.filter_append, List.length_append, Nat.cast_add, ihc, Finset.sum_range_succ]
        congr 1
        cases h : Q (f m c) <;> simp [h]

theorem radius_place (q : ℝ × ℝ × ℝ) (mu : ℝ) : radius 0 ⟨![q.1, q.2.1, q.2.2], mu⟩ = distance q := by
  unfold radius distance
  simp

theorem massWithin_halo (h : Halo) (draws : Nat → Nat → Draw) (r : ℝ) :
    massWithin 0 (particlesOfHalo h draws) r = ∑ k ∈ Finset.range h.counts.length, h.massPtc *
      ∑ i ∈ Finset.range (h.counts.getD k 0).toNat, if distance (place h.axes (draws k i)) < r then (1 : ℝ) else 0 := by
  have key : massWithin 0 (particlesOfHalo h draws) r = h.massPtc * (((haloPoints h draws).filter fun q => decide (distance q < r)).length : ℝ) := by
    unfold massWithin particlesOfHalo
    rw [List.filter_map, List.map_map]
    have e : ((fun p : Particle ℝ => decide (radius 0 p < r)) ∘ fun q : ℝ × ℝ × ℝ => (⟨![q.1, q.2.1, q.2.2], h.massPtc⟩ : Particle ℝ)) =
        fun q => decide (distance q < r) := by
      funext q
      simp only [Function.comp_apply, radius_place]
    rw [e]
    simp only [Function.comp_def, List.map_const', List.sum_replicate, nsmul_eq_mul]
    ring
  rw [key]
  unfold haloPoints
  rw [filter_shells (fun k i => place h.axes (draws k i)) (fun q => decide (distance q < r)) h.counts 0, Finset.mul_sum]
  simp

theorem massBetween_within (ps : List (Particle ℝ)) (lo hi : ℝ) (h : lo ≤ hi) :
    massBetween 0 ps lo hi = massWithin 0 ps hi - massWithin 0 ps lo := by
  unfold massBetween massWithin
  induction ps with
  | nil => simp
  | cons q ps ih =>
    simp only [List.filter_cons]
    by_cases h1 : radius 0 q < lo
    · have h2 : radius 0 q < hi := h1.trans_le h
      rw [decide_eq_true h1, decide_eq_true h2, decide_eq_false (by rintro ⟨h3, -⟩; linarith)]
      simp only [if_true, List.map_cons, List.sum_cons, Bool.false_eq_true, if_false, ih]
      ring
    · rw [decide_eq_false h1]
      by_cases h2 : radius 0 q < hi
      · rw [decide_eq_true h2, decide_eq_true ⟨not_lt.1 h1, h2⟩]
        simp only [if_true, List.map_cons, List.sum_cons, Bool.false_eq_true, if_false, ih]
        ring
      · rw [decide_eq_false h2, decide_eq_false (fun h3 => h2 h3.2)]
        simp only [Bool.false_eq_true, if_false, ih]

/-! ### Chances -/

theorem interval_chance {n k : Nat} (hn : 0 < n) (f : ℝ) :
    ∫ v, (if v * n - k < f then (1 : ℝ) else 0) ∂((n : ENNReal) • volume.restrict (Set.Ico ((k : ℝ) / n) ((k + 1 : ℝ) / n))) = max 0 (min 1 f) := by
  have hn' : (0 : ℝ) < n := by exact_mod_cast hn
  have e : (fun v : ℝ => if v * n - k < f then (1 : ℝ) else 0) = Set.indicator (Set.Iio ((k + f) / n)) fun _ => 1 := by
    funext v
    rw [Set.indicator_apply]
    congr 1
    rw [Set.mem_Iio, lt_div_iff₀ hn', sub_lt_iff_lt_add']
  rw [e, integral_indicator measurableSet_Iio, setIntegral_const, smul_eq_mul, mul_one]
  unfold Measure.real
  rw [Measure.smul_apply, Measure.restrict_apply measurableSet_Iio, smul_eq_mul, ENNReal.toReal_mul, ENNReal.toReal_natCast, Set.inter_comm,
    Set.Ico_inter_Iio, Real.volume_Ico]
  have h3 : min ((k + 1 : ℝ) / n) ((k + f) / n) - k / n = min 1 f / n := by
    rw [min_div_div_right hn'.le, min_add_add_left]
    ring
  rw [h3]
  by_cases hf : 0 ≤ min 1 f
  · rw [ENNReal.toReal_ofReal (div_nonneg hf hn'.le), max_eq_right hf]
    field_simp
  · push Not at hf
    rw [ENNReal.ofReal_of_nonpos (div_nonpos_of_nonpos_of_nonneg hf.le hn'.le), max_eq_left hf.le]
    simp

/-- The fraction of the particles of a shell which are within a radius tends to the fraction of its thickness. -/
theorem fraction_tendsto {Ω : Type} [MeasurableSpace Ω] {P : Measure Ω} [IsProbabilityMeasure P] {s : Axes} {n : Nat} (hs : Spheres s n)
    {draws : Nat → Nat → Ω → Draw} (hd : RandomShells P n draws) {k : Nat} (hk : k < n) (r : ℝ) :
    ∀ᵐ ω ∂P, Tendsto (fun N : ℕ => (∑ i ∈ Finset.range N, if distance (place s (draws k i ω)) < r then (1 : ℝ) else 0) / N) atTop
      (𝓝 (thicknessWithin s k r)) := by
  have hn : 0 < n := by omega
  have hlt := (inner_lt_outer s n hs.shells hs.sorted k hk).2
  have hlarge := large (f := fun v : ℝ => if v * n - k < (r - (0 :: s.a).getD k 0) / (s.a.getD k 0 - (0 :: s.a).getD k 0) then (1 : ℝ) else 0)
    (B := 1) (fun i => hd.meas k i) (hd.law k hk) (hd.indep k hk)
    (Measurable.ite (measurableSet_lt (by fun_prop) measurable_const) measurable_const measurable_const)
    (Eventually.of_forall fun v => by split <;> simp)
  rw [interval_chance hn] at hlarge
  have hin : ∀ᵐ ω ∂P, ∀ i, (draws k i ω).rand ∈ Set.Ico ((k : ℝ) / n) ((k + 1 : ℝ) / n) := by
    rw [ae_all_iff]
    intro i
    refine ae_of_ae_map (p := fun v => v ∈ Set.Ico ((k : ℝ) / n) ((k + 1 : ℝ) / n)) (hd.meas k i).aemeasurable ?_
    rw [hd.law k hk i]
    exact Measure.ae_smul_measure (ae_restrict_mem measurableSet_Ico) _
  filter_upwards [hlarge, hin] with ω h1 h2
  unfold thicknessWithin
  refine h1.congr fun N => ?_
  congr 1
  apply Finset.sum_congr rfl
  intro i _
  obtain ⟨h3, h4⟩ := h2 i
  have hpl := place_sphere s n hs.shells hs.sb hs.sc k hk (draws k i ω).x (draws k i ω).y (draws k i ω).z (draws k i ω).rand h3 h4
  have e : (⟨(draws k i ω).x, (draws k i ω).y, (draws k i ω).z, (draws k i ω).rand⟩ : Draw) = draws k i ω := rfl
  rw [e] at hpl
  rw [hpl]
  congr 1
  rw [lt_div_iff₀ (by linarith : 0 < s.a.getD k 0 - (0 :: s.a).getD k 0), lt_sub_iff_add_lt, add_comm]

/-! ### Many particles -/

section

variable {tot : ℝ} (htot : 0 < tot) {p : Prof} (hp : p.Pos) {s : Axes} {n : Nat} (hs : Spheres s n)
  {res : ℕ → ℝ} (hres : Tendsto res atTop atTop) {H : ℕ → Halo} (hg : ∀ l, genHalo tot (res l) p s = .ok (H l))
include htot hp hs hres hg

theorem axes_eventually : ∀ᶠ l in atTop, (H l).axes = s := by
  have hla := hs.la
  have htwo := hs.two
  obtain ⟨a0, a1, l', ha⟩ : ∃ a0 a1 l', s.a = a0 :: a1 :: l' := by
    match h : s.a with
    | [] => rw [h] at hla; simp at hla; omega
    | [x] => rw [h] at hla; simp at hla; omega
    | x :: y :: l' => exact ⟨x, y, l', rfl⟩
  have h1 := modelShell_pos htot hp hs (by omega : 1 < n)
  have e : modelShell tot p s 1 = ∫ r in a0..a1, modelPerRadius tot p s r := by
    unfold modelShell
    simp [ha]
  rw [e] at h1
  filter_upwards [hres.eventually_ge_atTop (tot / ∫ r in a0..a1, modelPerRadius tot p s r)] with l hl
  refine axes_kept (hg l) ha ?_
  rw [quad_eq (hg l), one_le_div htot]
  rwa [div_le_iff₀ h1] at hl

theorem mass_pos (l : ℕ) : 0 < (H l).massPtc := by
  obtain ⟨aLast, -, -, -, -, -, hl, -⟩ := genHalo_ok (hg l)
  have htm := (C63_total_mass tot (res l) p hp s aLast hl (hs.start aLast (List.mem_of_getLast? hl)) (H l) (hg l)).1
  have hNpos : (0 : ℝ) < (H l).counts.sum := by exact_mod_cast (counts_sum_pos (hg l)).1
  by_contra hneg
  rw [not_lt] at hneg
  nlinarith

theorem mass_tendsto : Tendsto (fun l => (H l).massPtc) atTop (𝓝 0) := by
  have hsum : Tendsto (fun l => ((H l).counts.sum : ℝ)) atTop atTop := by
    have h1 : Tendsto (fun l => 2 / 3 * res l - s.a.length / 2) atTop atTop :=
      tendsto_atTop_add_const_right _ _ (hres.const_mul_atTop (by norm_num))
    refine tendsto_atTop_mono' _ ?_ h1
    filter_upwards [hres.eventually_gt_atTop 0] with l hl
    exact (C92_resolution tot (res l) htot hl p hp s hs.start (H l) (hg l)).1
  have e : (fun l => (H l).massPtc) = fun l => tot / ((H l).counts.sum : ℝ) := by
    funext l
    obtain ⟨aLast, -, -, -, -, -, hl, -⟩ := genHalo_ok (hg l)
    have htm := (C63_total_mass tot (res l) p hp s aLast hl (hs.start aLast (List.mem_of_getLast? hl)) (H l) (hg l)).1
    have hNpos : (0 : ℝ) < (H l).counts.sum := by exact_mod_cast (counts_sum_pos (hg l)).1
    rw [eq_div_iff hNpos.ne', mul_comm]
    exact htm
  rw [e]
  exact tendsto_const_nhds.div_atTop hsum

theorem shell_mass_tendsto {k : Nat} (hk : k < n) :
    Tendsto (fun l => ((H l).counts.getD k 0 : ℝ) * (H l).massPtc) atTop (𝓝 (modelShell tot p s k)) := by
  have hla := hs.la
  have h0 := mass_tendsto htot hp hs hres hg
  have hb : Tendsto (fun l => (H l).massPtc * ((1 + n * (modelShell tot p s k / tot)) / 2)) atTop (𝓝 0) := by
    simpa using h0.mul_const ((1 + n * (modelShell tot p s k / tot)) / 2)
  rw [tendsto_iff_norm_sub_tendsto_zero]
  refine tendsto_of_tendsto_of_tendsto_of_le_of_le' tendsto_const_nhds hb (Eventually.of_forall fun _ => norm_nonneg _) ?_
  filter_upwards [axes_eventually htot hp hs hres hg] with l hl
  have hf := C63_follows_model tot (res l) htot p hp s hs.start hs.sorted (H l) (hg l)
  rw [hl] at hf
  have hkc : k < (H l).counts.length := by omega
  have h1 : (start :: s.a)[k]? = some ((start :: s.a).getD k 0) := by
    rw [List.getD_eq_getElem _ _ (by simp; omega), List.getElem?_eq_getElem]
  have h2 : s.a[k]? = some (s.a.getD k 0) := by
    rw [List.getD_eq_getElem _ _ (by omega), List.getElem?_eq_getElem]
  have h3 : (H l).counts[k]? = some ((H l).counts.getD k 0) := by
    rw [List.getD_eq_getElem _ _ (by omega), List.getElem?_eq_getElem]
  have h4 := hf.2 k _ _ _ h3 h1 h2
  rw [quad_eq (hg l), hla, mul_div_assoc] at h4
  exact h4

theorem counts_tendsto {k : Nat} (hk : k < n) : Tendsto (fun l => ((H l).counts.getD k 0).toNat) atTop atTop := by
  have h1 := shell_mass_tendsto htot hp hs hres hg hk
  have h2 := mass_tendsto htot hp hs hres hg
  have hpos := modelShell_pos htot hp hs hk
  have h3 : Tendsto (fun l => (H l).massPtc) atTop (𝓝[>] 0) :=
    tendsto_nhdsWithin_iff.2 ⟨h2, Eventually.of_forall fun l => mass_pos htot hp hs hres hg l⟩
  have h4 : Tendsto (fun l => ((H l).counts.getD k 0 : ℝ)) atTop atTop := by
    have h5 := h1.pos_mul_atTop hpos (tendsto_inv_nhdsGT_zero.comp h3)
    refine h5.congr fun l => ?_
    have := (mass_pos htot hp hs hres hg l).ne'
    simp only [Function.comp_apply]
    field_simp
  rw [tendsto_atTop]
  intro b
  filter_upwards [h4.eventually_ge_atTop (b : ℝ)] with l hl
  have : (b : ℤ) ≤ (H l).counts.getD k 0 := by exact_mod_cast hl
  omega

/-- The mass of the halo within a radius tends to that of the model with every shell spread evenly over its thickness. -/
theorem within_tendsto {Ω : Type} [MeasurableSpace Ω] {P : Measure Ω} [IsProbabilityMeasure P]
    {draws : Nat → Nat → Ω → Draw} (hd : RandomShells P n draws) (r : ℝ) :
    ∀ᵐ ω ∂P, Tendsto (fun l => massWithin 0 (particlesOfHalo (H l) fun k i => draws k i ω) r) atTop (𝓝 (spreadMass tot p s n r)) := by
  have hfr : ∀ᵐ ω ∂P, ∀ k, k < n → Tendsto (fun N : ℕ => (∑ i ∈ Finset.range N, if distance (place s (draws k i ω)) < r then (1 : ℝ) else 0) / N)
      atTop (𝓝 (thicknessWithin s k r)) := by
    rw [ae_all_iff]
    intro k
    by_cases hk : k < n
    · filter_upwards [fraction_tendsto hs hd hk r] with ω hω _ using hω
    · exact Eventually.of_forall fun ω h => absurd h hk
  filter_upwards [hfr] with ω hω
  have hsum : Tendsto (fun l => ∑ k ∈ Finset.range n, (((H l).counts.getD k 0 : ℝ) * (H l).massPtc) *
      ((∑ i ∈ Finset.range ((H l).counts.getD k 0).toNat, if distance (place s (draws k i ω)) < r then (1 : ℝ) else 0) /
        (((H l).counts.getD k 0).toNat : ℕ))) atTop (𝓝 (spreadMass tot p s n r)) := by
    apply tendsto_finsetSum
    intro k hk
    rw [Finset.mem_range] at hk
    exact (shell_mass_tendsto htot hp hs hres hg hk).mul ((hω k hk).comp (counts_tendsto htot hp hs hres hg hk))
  refine hsum.congr' ?_
  filter_upwards [axes_eventually htot hp hs hres hg] with l hl
  rw [massWithin_halo]
  have hlen : (H l).counts.length = n := by
    have := (C63_follows_model tot (res l) htot p hp s hs.start hs.sorted (H l) (hg l)).1
    rw [this, hl, hs.la]
  rw [hlen, hl]
  apply Finset.sum_congr rfl
  intro k hk
  rw [Finset.mem_range] at hk
  obtain ⟨-, -, -, -, -, -, -, -, -, -, -, -, -, -, hnn, -⟩ := genHalo_ok (hg l)
  have hc0 : 0 ≤ (H l).counts.getD k 0 := by
    rw [List.getD_eq_getElem _ _ (by omega)]
    exact hnn _ (List.getElem_mem _)
  obtain ⟨c, hc⟩ := Int.eq_ofNat_of_zero_le hc0
  rw [hc]
  simp only [Int.toNat_natCast, Int.cast_natCast]
  rcases Nat.eq_zero_or_pos c with rfl | hcp
  · simp
  · have : (c : ℝ) ≠ 0 := by exact_mod_cast hcp.ne'
    field_simp

/-- C178. Density profiles of halos with more and more particles: almost surely the estimate in every bin tends to the mean density obtained by spreading
the mass which the model has in each shell evenly over the thickness of the shell. -/
theorem C178_limit {Ω : Type} [MeasurableSpace Ω] {P : Measure Ω} [IsProbabilityMeasure P]
    {draws : Nat → Nat → Ω → Draw} (hd : RandomShells P n draws) (r200 : ℝ) (hr : 0 < r200) (edges : List ℝ) (he : GoodEdges edges)
    (scratch : ℕ → Ω → List Nat) (hscratch : ∀ l ω, (particlesOfHalo (H l) fun k i => draws k i ω).length ≤ (scratch l ω).length) :
    ∀ᵐ ω ∂P, ∀ (j : Nat) (lo hi : ℝ), (bins edges)[j]? = some (lo, hi) →
      Tendsto (fun l => estimated (H l) (fun k i => draws k i ω) r200 edges (scratch l ω) j) atTop
        (𝓝 ((spreadMass tot p s n (hi * r200) - spreadMass tot p s n (lo * r200)) / shellVolume (lo * r200) (hi * r200))) := by
  rw [ae_all_iff]
  intro j
  by_cases hj : ∃ lo hi, (bins edges)[j]? = some (lo, hi)
  · obtain ⟨lo, hi, hb⟩ := hj
    filter_upwards [within_tendsto htot hp hs hres hg hd (hi * r200), within_tendsto htot hp hs hres hg hd (lo * r200)] with ω h1 h2
    intro lo' hi' hb'
    rw [hb] at hb'
    obtain ⟨rfl, rfl⟩ := Prod.mk.inj (Option.some.inj hb')
    refine ((h1.sub h2).div_const _).congr fun l => ?_
    have hlt := Binning.bins_lt he.2 _ (List.mem_of_getElem? hb)
    unfold estimated
    rw [Binning.C27_profile _ 0 r200 hr.le edges he.1 _ (hscratch l ω), List.getD_eq_getElem?_getD, List.getElem?_map, hb]
    simp only [Option.map_some, Option.getD_some]
    rw [massBetween_within _ _ _ (mul_le_mul_of_nonneg_right hlt.le hr.le)]
  · refine Eventually.of_forall fun ω lo hi hb => ?_
    exact absurd ⟨lo, hi, hb⟩ hj

/-- C178 for bins between surfaces of the halo: the estimates tend to the mean density of the model. -/
theorem C178_surfaces_partial {Ω : Type} [MeasurableSpace Ω] {P : Measure Ω} [IsProbabilityMeasure P]
    {draws : Nat → Nat → Ω → Draw} (hd : RandomShells P n draws) (r200 : ℝ) (hr : 0 < r200) (edges : List ℝ) (he : GoodEdges edges)
    (scratch : ℕ → Ω → List Nat) (hscratch : ∀ l ω, (particlesOfHalo (H l) fun k i => draws k i ω).length ≤ (scratch l ω).length) :
    ∀ᵐ ω ∂P, ∀ (j : Nat) (lo hi : ℝ), (bins edges)[j]? = some (lo, hi) → lo * r200 ∈ s.a → hi * r200 ∈ s.a →
      Tendsto (fun l => estimated (H l) (fun k i => draws k i ω) r200 edges (scratch l ω) j) atTop
        (𝓝 (modelMean tot p s (lo * r200) (hi * r200))) := by
  filter_upwards [C178_limit htot hp hs hres hg hd r200 hr edges he scratch hscratch] with ω hω
  intro j lo hi hb h1 h2
  have h := hω j lo hi hb
  have hla := hs.la
  have surf : ∀ x ∈ s.a, spreadMass tot p s n x = ∫ r in start..x, modelPerRadius tot p s r := by
    intro x hx
    obtain ⟨k, hk, rfl⟩ := List.getElem_of_mem hx
    have := spread_surface htot hp hs (k := k) (by omega)
    rwa [List.getD_eq_getElem _ _ hk] at this
  rw [surf _ h1, surf _ h2] at h
  unfold modelMean
  have hadd := integral_add (tot := tot) (s := s) hp start_pos (start_pos.trans (hs.start _ h1)) (start_pos.trans (hs.start _ h2))
  have e : (∫ r in start..hi * r200, modelPerRadius tot p s r) - (∫ r in start..lo * r200, modelPerRadius tot p s r) =
      ∫ r in lo * r200..hi * r200, modelPerRadius tot p s r := by linarith
  rwa [e] at h

/-- C178 is false for other bins: if the mass of the model per radius (`r²` times the density) increases throughout a shell, then in the inner part of this shell the estimates
tend to a density which is too large, however many particles the halo has. -/
theorem C178_within_refuted {Ω : Type} [MeasurableSpace Ω] {P : Measure Ω} [IsProbabilityMeasure P]
    {draws : Nat → Nat → Ω → Draw} (hd : RandomShells P n draws) (k : Nat) (hk : k + 1 < n)
    (hinc : StrictMonoOn (fun r => r ^ 2 * modelShape p r) (Set.Icc (s.a.getD k 0) (s.a.getD (k + 1) 0)))
    (r200 : ℝ) (hr : 0 < r200) (lo hi : ℝ) (hlo : lo * r200 = s.a.getD k 0) (hlohi : lo < hi) (hhi : hi * r200 < s.a.getD (k + 1) 0)
    (scratch : ℕ → Ω → List Nat) (hscratch : ∀ l ω, (particlesOfHalo (H l) fun k i => draws k i ω).length ≤ (scratch l ω).length) :
    ∃ lim, modelMean tot p s (lo * r200) (hi * r200) < lim ∧
      ∀ᵐ ω ∂P, Tendsto (fun l => estimated (H l) (fun k i => draws k i ω) r200 [lo, hi] (scratch l ω) 0) atTop (𝓝 lim) := by
  have hla := hs.la
  have hpi := Real.pi_pos
  have hinc : StrictMonoOn (integrand0 p) (Set.Icc (s.a.getD k 0) (s.a.getD (k + 1) 0)) := by
    rw [← shape_integrand0 p]
    intro x hx y hy hxy
    have := mul_lt_mul_of_pos_left (hinc hx hy hxy) (by positivity : 0 < 4 * Real.pi)
    simpa only [mul_assoc] using this
  obtain ⟨hl1, hl2⟩ := lower_lt hs hk
  simp only [List.getD_cons_succ] at hl1 hl2
  have hr0 : 0 < s.a.getD k 0 := start_pos.trans_le hl1
  have hlo0 : 0 < lo := by
    rw [← hlo] at hr0
    exact pos_of_mul_pos_left hr0 hr.le
  have hlt : lo * r200 < hi * r200 := mul_lt_mul_of_pos_right hlohi hr
  have hgood : GoodEdges [lo, hi] := by
    refine ⟨?_, by simpa using hlohi⟩
    intro e he
    simp only [List.mem_cons, List.not_mem_nil, or_false] at he
    rcases he with rfl | rfl <;> linarith
  have hV := Binning.shellVolume_pos (hlo0.le.trans (le_refl lo) |> fun h => mul_nonneg h hr.le) hlt
  refine ⟨_, ?_, (C178_limit htot hp hs hres hg hd r200 hr [lo, hi] hgood scratch hscratch).mono fun ω hω => hω 0 lo hi (by simp [bins])⟩
  unfold modelMean
  rw [div_lt_div_iff_of_pos_right hV, hlo]
  rw [hlo] at hlt
  generalize hi * r200 = t at hlt hhi ⊢
  -- mass spread over the shell
  have hspread : spreadMass tot p s n t - spreadMass tot p s n (s.a.getD k 0) =
      modelShell tot p s (k + 1) * ((t - s.a.getD k 0) / (s.a.getD (k + 1) 0 - s.a.getD k 0)) := by
    unfold spreadMass
    rw [← Finset.sum_sub_distrib, Finset.sum_eq_single (k + 1)]
    · rw [← mul_sub]
      congr 1
      unfold thicknessWithin
      simp only [List.getD_cons_succ, sub_self, zero_div]
      have h1 : 0 ≤ (t - s.a.getD k 0) / (s.a.getD (k + 1) 0 - s.a.getD k 0) := div_nonneg (by linarith) (by linarith)
      have h2 : (t - s.a.getD k 0) / (s.a.getD (k + 1) 0 - s.a.getD k 0) ≤ 1 := by
        rw [div_le_one (by linarith)]; linarith
      rw [min_eq_right h2, max_eq_right h1, min_eq_right zero_le_one, max_self, sub_zero]
    · intro i hi' hne
      rw [Finset.mem_range] at hi'
      have hil := inner_lt_outer s n hs.shells hs.sorted i hi'
      rw [← mul_sub]
      have : thicknessWithin s i t = thicknessWithin s i (s.a.getD k 0) := by
        rcases Nat.lt_or_ge i (k + 1) with h | h
        · have hm := getD_mono hs.shells.sa (by omega : i ≤ k) (by omega : k < s.a.length)
          unfold thicknessWithin
          rw [min_eq_left, min_eq_left]
          · rw [one_le_div (by linarith [hil.2])]; linarith
          · rw [one_le_div (by linarith [hil.2])]; linarith
        · obtain ⟨i', rfl⟩ : ∃ i', i = i' + 1 := ⟨i - 1, by omega⟩
          have hm := getD_mono hs.shells.sa (by omega : k + 1 ≤ i') (by omega : i' < s.a.length)
          simp only [List.getD_cons_succ] at hil
          unfold thicknessWithin
          simp only [List.getD_cons_succ]
          rw [max_eq_left, max_eq_left]
          · exact (min_le_right _ _).trans (div_nonpos_of_nonpos_of_nonneg (by linarith) (by linarith [hil.2]))
          · exact (min_le_right _ _).trans (div_nonpos_of_nonpos_of_nonneg (by linarith) (by linarith [hil.2]))
      rw [this, sub_self, mul_zero]
    · intro h
      exact absurd (Finset.mem_range.2 hk) h
  rw [hspread]
  unfold modelShell
  simp only [List.getD_cons_succ]
  set r0 := s.a.getD k 0
  set r1 := s.a.getD (k + 1) 0
  have ht0 : 0 < t := hr0.trans hlt
  rw [← integral_add (tot := tot) (s := s) hp hr0 ht0 (hr0.trans hl2)]
  simp only [perRadius_eq]
  rw [intervalIntegral.integral_const_mul, intervalIntegral.integral_const_mul, ← mul_add, mul_assoc]
  refine mul_lt_mul_of_pos_left ?_ (div_pos htot (quad0_pos hp start_pos (last_gt hs)))
  have hi1 : IntervalIntegrable (integrand0 p) volume r0 t := integrable0 hp hr0 ht0
  have hi2 : IntervalIntegrable (integrand0 p) volume t r1 := integrable0 hp ht0 (hr0.trans hl2)
  have b1 : ∫ r in r0..t, integrand0 p r ≤ (t - r0) * integrand0 p t := by
    have := intervalIntegral.integral_mono_on hlt.le hi1 (intervalIntegrable_const (c := integrand0 p t)) fun x hx =>
      hinc.monotoneOn ⟨hx.1, hx.2.trans hhi.le⟩ ⟨hlt.le, hhi.le⟩ hx.2
    simpa using this
  have b2 : (r1 - t) * integrand0 p t < ∫ r in t..r1, integrand0 p r := by
    have hc : ∀ y ∈ Set.Icc t r1, (0 : ℝ) < y := fun y hy => ht0.trans_le hy.1
    have hcont : ContinuousOn (integrand0 p) (Set.Icc t r1) := (integrand0_continuousOn hp).mono hc
    have := intervalIntegral.integral_lt_integral_of_continuousOn_of_le_of_exists_lt (f := fun _ => integrand0 p t) (g := integrand0 p) hhi
      continuousOn_const hcont (fun x hx => hinc.monotoneOn ⟨hlt.le, hhi.le⟩ ⟨hlt.le.trans hx.1.le, hx.2⟩ hx.1.le)
      ⟨r1, ⟨hhi.le, le_rfl⟩, hinc ⟨hlt.le, hhi.le⟩ ⟨hl2.le, le_rfl⟩ hhi⟩
    simpa using this
  generalize (∫ r in r0..t, integrand0 p r) = I1 at *
  generalize (∫ r in t..r1, integrand0 p r) = I2 at *
  generalize integrand0 p t = f at *
  rw [← mul_div_assoc, lt_div_iff₀ (by linarith)]
  have hA : 0 < t - r0 := by linarith
  have hB : 0 < r1 - t := by linarith
  have e1 : I1 * (r1 - t) ≤ (t - r0) * f * (r1 - t) := mul_le_mul_of_nonneg_right b1 hB.le
  have e2 : (t - r0) * ((r1 - t) * f) < (t - r0) * I2 := mul_lt_mul_of_pos_left b2 hA
  nlinarith

end

/-- The hypothesis of `C178_within_refuted` for the profile of Navarro, Frenk and White within the scale radius. -/
theorem nfw_increases (rs lo hi : ℝ) (hrs : 0 < rs) (hlo : 0 < lo) (hhi : hi ≤ rs) : 
    StrictMonoOn (fun r => r ^ 2 * modelShape (.nfw rs) r) (Set.Icc lo hi) := by
  intro x hx y hy hxy
  have hx0 : 0 < x := hlo.trans_le hx.1
  have hy0 : 0 < y := hlo.trans_le hy.1
  have e : ∀ r : ℝ, 0 < r → r ^ 2 * modelShape (.nfw rs) r = rs ^ 2 * (r / rs / (1 + r / rs) ^ 2) := by
    intro r hr
    unfold modelShape
    have : 1 + r / rs ≠ 0 := by positivity
    field_simp
  beta_reduce
  rw [e x hx0, e y hy0]
  refine mul_lt_mul_of_pos_left ?_ (by positivity)
  have hu : 0 < x / rs := div_pos hx0 hrs
  have huv : x / rs < y / rs := (div_lt_div_iff_of_pos_right hrs).2 hxy
  have hv : y / rs ≤ 1 := (div_le_one hrs).2 (hy.2.trans hhi)
  generalize x / rs = u at *
  generalize y / rs = v at *
  rw [div_lt_div_iff₀ (by positivity) (by nlinarith)]
  have : 0 < (v - u) * (1 - u * v) := mul_pos (by linarith) (by nlinarith)
  nlinarith

/-- Halos can be made with any large number of particles. -/
theorem C178_exist (tot : ℝ) (htot : 0 < tot) (p : Prof) (hp : p.Pos) (s : Axes) (n : Nat) (hs : Spheres s n) (hn : n ≤ 2 ^ 1000 + 1)
    (res : ℕ → ℝ) (hres : Tendsto res atTop atTop) : ∀ᶠ l in atTop, ∃ h, genHalo tot (res l) p s = .ok h := by
  have hla := hs.la
  have htwo := hs.two
  have hne : s.a ≠ [] := by intro h; rw [h] at hla; simp at hla; omega
  have hhead : s.a.head? = some (s.a.head hne) := List.head?_eq_some_head hne
  have hlast : s.a.getLast? = some (s.a.getLast hne) := List.getLast?_eq_some_getLast hne
  have hlt : s.a.head hne < s.a.getLast hne := by
    rw [List.head_eq_getElem, List.getLast_eq_getElem]
    exact List.pairwise_iff_getElem.mp hs.sorted _ _ (by omega) (by omega) (by omega)
  have h0 : 0 < quad (integrand0 p) (s.a.head hne) (s.a.getLast hne) := quad0_pos hp (start_pos.trans (hs.start _ (List.head_mem hne))) hlt
  have h1 : 0 < quad (integrand0 p) start (s.a.getLast hne) := quad0_pos hp start_pos (hs.start _ (List.getLast_mem hne))
  have h2 := div_pos h0 h1
  filter_upwards [hres.eventually_gt_atTop (1 / 2 / (quad (integrand0 p) (s.a.head hne) (s.a.getLast hne) / quad (integrand0 p) start (s.a.getLast hne))),
    hres.eventually_gt_atTop 0] with l hl hl0
  exact C65_no_failure tot (res l) htot hl0 p hp s hs.start hs.sorted (by omega) (by omega) _ _ hhead hlast (by rwa [div_lt_iff₀ h2] at hl)

theorem two_le_pow_succ (m : Nat) : 2 ≤ 2 ^ m + 1 := by
  have := Nat.one_le_two_pow (n := m)
  omega

/-- Two spherical shells. -/
def twoSpheres : Axes := ⟨[1, 2], [1, 2], [1, 2]⟩

theorem twoSpheres_ok : Spheres twoSpheres 2 := by
  refine ⟨rfl, le_rfl, rfl, rfl, ?_, by simp [twoSpheres]⟩
  intro x hx
  simp only [twoSpheres, List.mem_cons, List.not_mem_nil, or_false] at hx
  unfold start
  rcases hx with rfl | rfl <;> norm_num

theorem uniform_probability (n k : ℕ) (hn : 0 < n) :
    IsProbabilityMeasure ((n : ENNReal) • volume.restrict (Set.Ico ((k : ℝ) / n) ((k + 1 : ℝ) / n))) := by
  have hn' : (0 : ℝ) < n := by exact_mod_cast hn
  constructor
  rw [Measure.smul_apply, Measure.restrict_apply MeasurableSet.univ, Set.univ_inter, Real.volume_Ico, smul_eq_mul]
  have e : (k + 1 : ℝ) / n - k / n = (n : ℝ)⁻¹ := by field_simp; ring
  rw [e, ENNReal.ofReal_inv_of_pos hn', ENNReal.ofReal_natCast]
  exact ENNReal.mul_inv_cancel (by exact_mod_cast hn.ne') (ENNReal.natCast_ne_top n)

/-- Independent random numbers as required exist. -/
theorem randomShells_exist (n : ℕ) (hn : 0 < n) : ∃ (Ω : Type) (_ : MeasurableSpace Ω) (P : Measure Ω) (_ : IsProbabilityMeasure P)
    (draws : ℕ → ℕ → Ω → Draw), RandomShells P n draws := by
  have inst : ∀ ki : ℕ × ℕ, IsProbabilityMeasure ((n : ENNReal) • volume.restrict (Set.Ico ((ki.1 : ℝ) / n) ((ki.1 + 1 : ℝ) / n))) :=
    fun ki => uniform_probability n ki.1 hn
  refine ⟨ℕ × ℕ → ℝ, inferInstance,
    Measure.infinitePi fun ki : ℕ × ℕ => (n : ENNReal) • volume.restrict (Set.Ico ((ki.1 : ℝ) / n) ((ki.1 + 1 : ℝ) / n)), inferInstance,
    fun k i ω => ⟨1, 2, 3, ω (k, i)⟩, fun k i => measurable_pi_apply (k, i), fun k _ i => Measure.infinitePi_map_eval _ (k, i), fun k _ => ?_⟩
  have h := iIndepFun_infinitePi (P := fun ki : ℕ × ℕ => (n : ENNReal) • volume.restrict (Set.Ico ((ki.1 : ℝ) / n) ((ki.1 + 1 : ℝ) / n)))
    (X := fun _ x => x) fun _ => measurable_id
  exact h.precomp (g := fun i : ℕ => (k, i)) fun i j hij => (Prod.mk.inj hij).2

/-- A profile of Navarro, Frenk and White with scale radius 3 and halos with more and more particles: between the two surfaces the estimate tends to the mean
density of the model, and between the first surface and the middle of the shell to a larger density. -/
example : ∃ (Ω : Type) (_ : MeasurableSpace Ω) (P : Measure Ω) (_ : IsProbabilityMeasure P) (draws : ℕ → ℕ → Ω → Draw) (res : ℕ → ℝ) (H : ℕ → Halo)
    (scratch : ℕ → Ω → List Nat),
    (∀ l, genHalo 1000 (res l) (.nfw 3) twoSpheres = .ok (H l)) ∧
    (∀ᵐ ω ∂P, Tendsto (fun l => estimated (H l) (fun k i => draws k i ω) 10 [1 / 10, 2 / 10] (scratch l ω) 0) atTop
      (𝓝 (modelMean 1000 (.nfw 3) twoSpheres 1 2))) ∧
    ∃ lim, modelMean 1000 (.nfw 3) twoSpheres 1 (3 / 2) < lim ∧
      ∀ᵐ ω ∂P, Tendsto (fun l => estimated (H l) (fun k i => draws k i ω) 10 [1 / 10, 3 / 20] (scratch l ω) 0) atTop (𝓝 lim) := by
  obtain ⟨Ω, m, P, hP, draws, hd⟩ := randomShells_exist 2 (by norm_num)
  have hp : (Prof.nfw 3).Pos := by show (0 : ℝ) < 3; norm_num
  have hex := C178_exist 1000 (by norm_num) (.nfw 3) hp twoSpheres 2 twoSpheres_ok (two_le_pow_succ 1000) (fun l => (l : ℝ)) tendsto_natCast_atTop_atTop
  obtain ⟨l₀, hl₀⟩ := eventually_atTop.1 hex
  choose H hH using fun l : ℕ => hl₀ (l + l₀) (by omega)
  have hres : Tendsto (fun l : ℕ => ((l + l₀ : ℕ) : ℝ)) atTop atTop :=
    tendsto_natCast_atTop_atTop.comp (tendsto_add_atTop_nat l₀)
  set scratch : ℕ → Ω → List Nat := fun l ω => List.replicate (particlesOfHalo (H l) fun k i => draws k i ω).length 0
  have hsc : ∀ l ω, (particlesOfHalo (H l) fun k i => draws k i ω).length ≤ (scratch l ω).length := by
    intro l ω
    simp [scratch]
  refine ⟨Ω, m, P, hP, draws, _, H, scratch, hH, ?_, ?_⟩
  · have h := C178_surfaces_partial (by norm_num) hp twoSpheres_ok hres hH hd 10 (by norm_num) [1 / 10, 2 / 10] ⟨by
      intro e he
      simp only [List.mem_cons, List.not_mem_nil, or_false] at he
      rcases he with rfl | rfl <;> norm_num, by norm_num⟩ scratch hsc
    filter_upwards [h] with ω hω
    have := hω 0 (1 / 10) (2 / 10) (by simp [bins]) (by norm_num [twoSpheres]) (by norm_num [twoSpheres])
    norm_num at this ⊢
    exact this
  · have h := C178_within_refuted (by norm_num) hp twoSpheres_ok hres hH hd 0 (by norm_num)
      (nfw_increases 3 _ _ (by norm_num) (by simp [twoSpheres]) (by simp [twoSpheres]; norm_num)) 10 (by norm_num) (1 / 10) (3 / 20)
      (by norm_num [twoSpheres]) (by norm_num) (by norm_num [twoSpheres]) scratch hsc
    norm_num at h ⊢
    exact h

end Verif.Mock
