import Verif.Api.Shapes
import Verif.Api.Lemmas
import Verif.Periodic.Props

/-!
# One centre per object (C125)

Centres of density profiles and of `getMassesCenters` (`centreOf`) and centres of shapes (`shapeCentre`).
-/

set_option linter.unusedSectionVars false

namespace Verif.Api

open Verif.Periodic

/-! ## Specification -/

/-- Other names of the axes and another unit of length. -/
def relabel (σ : Fin 3 ≃ Fin 3) (s : ℝ) (v : Vec ℝ) : Vec ℝ := fun i => s * v (σ i)

/-- The particles with other names of the axes and another unit of length. -/
def relabelAll (σ : Fin 3 ≃ Fin 3) (s : ℝ) (ps : List (Particle ℝ)) : List (Particle ℝ) :=
  ps.map fun p => ⟨relabel σ s p.pos, p.mass⟩

/-! ## Proofs -/

theorem sum_perm (σ : Fin 3 ≃ Fin 3) (f : Fin 3 → ℝ) : f (σ 0) + f (σ 1) + f (σ 2) = f 0 + f 1 + f 2 := by
  have := Equiv.sum_comp σ f
  simpa [Fin.sum_univ_three] using this

theorem dist_relabel (σ : Fin 3 ≃ Fin 3) (s : ℝ) (hs : 0 < s) (a b : Vec ℝ) :
    Periodic.dist (relabel σ s a) (relabel σ s b) = s * Periodic.dist a b := by
  unfold Periodic.dist relabel
  have h := sum_perm σ fun i => (a i - b i) ^ 2
  rw [← h, ← Real.sqrt_sq hs.le, ← Real.sqrt_mul (sq_nonneg s), Real.sqrt_sq hs.le]
  congr 1
  ring

theorem weightedMean_relabel (σ : Fin 3 ≃ Fin 3) (s : ℝ) (ps : List (Particle ℝ)) :
    weightedMean (relabelAll σ s ps) = relabel σ s (weightedMean ps) := by
  funext i
  unfold weightedMean relabel relabelAll totalMass
  simp only [List.map_map, Function.comp_def, relabel]
  rw [← mul_div_assoc, ← sum_map_mul_left']
  congr 3
  funext p
  ring

theorem calcMode_relabel (σ : Fin 3 ≃ Fin 3) (s : ℝ) (hs : 0 < s) (fuel : Nat) (ps : List (Particle ℝ)) (rad : ℝ) :
    calcMode fuel (relabelAll σ s ps) (s * rad) = (calcMode fuel ps rad).map (relabel σ s) := by
  induction fuel generalizing ps rad with
  | zero => rfl
  | succ n ih =>
    rw [calcMode_succ, calcMode_succ]
    have hf : (relabelAll σ s ps).filter (fun p => decide (Periodic.dist p.pos (weightedMean (relabelAll σ s ps)) < s * rad)) =
        relabelAll σ s (ps.filter fun p => decide (Periodic.dist p.pos (weightedMean ps) < rad)) := by
      unfold relabelAll
      rw [List.filter_map]
      congr 1
      apply List.filter_congr
      intro p _
      have := weightedMean_relabel σ s ps
      unfold relabelAll at this
      simp only [Function.comp_def, this, dist_relabel σ s hs, mul_lt_mul_iff_right₀ hs]
    rw [hf]
    have hl : ∀ l, (relabelAll σ s l).length = l.length := fun l => by simp [relabelAll]
    rw [hl]
    split
    · rw [weightedMean_relabel]
      rfl
    · rw [mul_assoc, ih]

theorem reference_relabel (σ : Fin 3 ≃ Fin 3) (s : ℝ) (choose : List Nat) (xyz : List (Vec ℝ)) :
    reference choose (xyz.map (relabel σ s)) = relabel σ s (reference choose xyz) := by
  have h : (choose.filterMap fun j => (xyz.map (relabel σ s))[j]?) = (choose.filterMap fun j => xyz[j]?).map (relabel σ s) := by
    rw [List.map_filterMap]
    simp only [List.getElem?_map]
  funext i
  unfold reference
  rw [h]
  simp only [relabel, List.map_map, Function.comp_def, List.length_map]
  rw [sum_map_mul_left', mul_div_assoc]

theorem unwrapAxis_scale (s : ℝ) (hs : 0 < s) (L ref x : ℝ) :
    unwrapAxis (s * L) (s * ref) (s * x) = s * unwrapAxis L ref x := by
  have h1 : s * x - s * ref > s * L / 2 ↔ x - ref > L / 2 := by
    rw [← mul_sub, mul_div_assoc, gt_iff_lt, mul_lt_mul_iff_right₀ hs]
  have h2 : s * x - s * ref < -(s * L) / 2 ↔ x - ref < -L / 2 := by
    rw [← mul_sub, ← mul_neg, mul_div_assoc, mul_lt_mul_iff_right₀ hs]
  unfold unwrapAxis
  simp only [h1, h2]
  split <;> split <;> ring

theorem respectPBC_relabel (σ : Fin 3 ≃ Fin 3) (s : ℝ) (hs : 0 < s) (choose : List Nat) (xyz : List (Vec ℝ)) (L : ℝ) :
    respectPBCNoRef choose (xyz.map (relabel σ s)) (s * L) = (respectPBCNoRef choose xyz L).map (relabel σ s) := by
  unfold respectPBCNoRef
  by_cases h : L = 0
  · simp [h]
  · rw [if_pos (mul_ne_zero hs.ne' h), if_pos h, reference_relabel]
    simp only [List.map_map, Function.comp_def]
    apply List.map_congr_left
    intro p _
    funext i
    exact unwrapAxis_scale s hs L _ _

theorem zipWith_relabel (σ : Fin 3 ≃ Fin 3) (s : ℝ) (xyz : List (Vec ℝ)) (ps : List (Particle ℝ)) :
    List.zipWith (fun x p => (⟨x, p.mass⟩ : Particle ℝ)) (xyz.map (relabel σ s)) (relabelAll σ s ps) =
      relabelAll σ s (List.zipWith (fun x p => (⟨x, p.mass⟩ : Particle ℝ)) xyz ps) := by
  unfold relabelAll
  rw [List.zipWith_map, List.map_zipWith]

theorem pos_relabelAll (σ : Fin 3 ≃ Fin 3) (s : ℝ) (ps : List (Particle ℝ)) :
    ((relabelAll σ s ps).map fun p => p.pos) = (ps.map fun p => p.pos).map (relabel σ s) := by
  simp [relabelAll]

theorem max?_scale (s : ℝ) (hs : 0 < s) (l : List ℝ) : (l.map (s * ·)).max? = l.max?.map (s * ·) := by
  cases l with
  | nil => rfl
  | cons a l =>
    simp only [List.map_cons, List.max?_cons', Option.map_some, Option.some.injEq]
    induction l generalizing a with
    | nil => rfl
    | cons b l ih =>
      simp only [List.map_cons, List.foldl_cons]
      rw [← mul_max_of_nonneg _ _ hs.le, ih]

theorem min?_scale (s : ℝ) (hs : 0 < s) (l : List ℝ) : (l.map (s * ·)).min? = l.min?.map (s * ·) := by
  cases l with
  | nil => rfl
  | cons a l =>
    simp only [List.map_cons, List.min?_cons', Option.map_some, Option.some.injEq]
    induction l generalizing a with
    | nil => rfl
    | cons b l ih =>
      simp only [List.map_cons, List.foldl_cons]
      rw [← mul_min_of_nonneg _ _ hs.le, ih]

theorem axisExtent_relabel (σ : Fin 3 ≃ Fin 3) (s : ℝ) (hs : 0 < s) (ps : List (Particle ℝ)) (a : Fin 3) :
    axisExtent (relabelAll σ s ps) a = s * axisExtent ps (σ a) := by
  have h : ((relabelAll σ s ps).map fun p => p.pos a) = (ps.map fun p => p.pos (σ a)).map (s * ·) := by
    simp [relabelAll, relabel]
  unfold axisExtent
  rw [h, max?_scale s hs, min?_scale s hs]
  cases (ps.map fun p => p.pos (σ a)).max? <;> cases (ps.map fun p => p.pos (σ a)).min? <;> simp [mul_sub]

theorem max_perm (σ : Fin 3 ≃ Fin 3) (f : Fin 3 → ℝ) :
    max (max (f (σ 0)) (f (σ 1))) (f (σ 2)) = max (max (f 0) (f 1)) (f 2) := by
  have h : ∀ g : Fin 3 → ℝ, ∀ x, max (max (g 0) (g 1)) (g 2) ≤ x ↔ ∀ i, g i ≤ x := by
    intro g x
    rw [max_le_iff, max_le_iff, Fin.forall_fin_succ, Fin.forall_fin_two]
    exact and_assoc
  apply eq_of_forall_ge_iff
  intro x
  rw [h f x, h (fun i => f (σ i)) x]
  exact σ.forall_congr_left.trans (by simp)

theorem calcCoM_relabel (σ : Fin 3 ≃ Fin 3) (s : ℝ) (choose : List Nat) (ps : List (Particle ℝ)) :
    calcCoM choose (relabelAll σ s ps) = relabel σ s (calcCoM choose ps) := by
  unfold calcCoM
  rw [pos_relabelAll, reference_relabel]
  funext i
  simp only [relabelAll, List.map_map, Function.comp_def, relabel]
  rw [mul_add, ← sum_map_mul_left']
  congr 3
  funext p
  ring

/-- C125. The centre of the shapes of an object, of either kind, does not depend on the names of the axes and on the unit of
length. -/
theorem C125_shapes (choose : Nat → List Nat) (limit : Nat) (L : ℝ) (center : Center) (ps : List (Particle ℝ))
    (σ : Fin 3 ≃ Fin 3) (s : ℝ) (hs : 0 < s) :
    shapeCentre choose limit (s * L) center (relabelAll σ s ps) =
      (shapeCentre choose limit L center ps).map (relabel σ s) := by
  unfold shapeCentre
  rw [pos_relabelAll, respectPBC_relabel σ s hs]
  dsimp only
  rw [zipWith_relabel]
  have hl : (relabelAll σ s ps).length = ps.length := by simp [relabelAll]
  rw [hl]
  cases center with
  | com =>
    simp only [Option.map_some, calcCoM_relabel]
  | mode =>
    simp only [axisExtent_relabel σ s hs]
    rw [← mul_max_of_nonneg _ _ hs.le, ← mul_max_of_nonneg _ _ hs.le, max_perm σ (axisExtent _), calcMode_relabel σ s hs]

/-- C125. The centre returned with masses and used for density profiles, of either kind, does not depend on the names of the
axes. -/
theorem C125_masses (choose : Nat → List Nat) (limit : Nat) (L : ℝ) (center : Center) (ps : List (Particle ℝ))
    (σ : Fin 3 ≃ Fin 3) :
    centreOf choose limit L center (relabelAll σ 1 ps) = (centreOf choose limit L center ps).map (relabel σ 1) := by
  unfold centreOf
  have h := respectPBC_relabel σ 1 one_pos (choose ps.length) (ps.map fun p => p.pos) L
  rw [one_mul] at h
  have hl : (relabelAll σ 1 ps).length = ps.length := by simp [relabelAll]
  rw [hl, pos_relabelAll, h]
  dsimp only
  rw [zipWith_relabel]
  cases center with
  | com => simp only [Option.map_some, calcCoM_relabel]
  | mode =>
    have := calcMode_relabel σ 1 one_pos limit
      (List.zipWith (fun x p => (⟨x, p.mass⟩ : Particle ℝ)) (respectPBCNoRef (choose ps.length) (ps.map fun p => p.pos) L) ps) 1000
    rwa [one_mul] at this

/-- C125 (partial). With `CENTER = 'com'` shapes, density profiles and `getMassesCenters` have the same centre, the mean position of
periodic images of all particles (for particles in the box and with positive masses).  Missing: `CENTER = 'mode'`
(`C125_mode_refuted`). -/
theorem C125_same_partial (choose : Nat → List Nat) (limit limit' : Nat) (L : ℝ) (ps : List (Particle ℝ)) :
    ∃ v, shapeCentre choose limit L .com ps = some v ∧ centreOf choose limit' L .com ps = some v ∧
      (0 < L → ps ≠ [] → (∀ p ∈ ps, ∀ a, 0 ≤ p.pos a ∧ p.pos a < L) → (∀ p ∈ ps, 0 < p.mass) →
        (∃ j ∈ choose ps.length, j < ps.length) → MeanOfImages L true ps v) := by
  refine ⟨_, rfl, rfl, fun hL hne hin hm hch => ?_⟩
  obtain ⟨⟨sub, h1, h2, h3, h4⟩, -⟩ := centre_spec choose limit' L hL .com ps hne hin hm hch _ rfl
  exact ⟨unwrapped choose L ps, unwrapped_image _ _ hL _, sub, h1, h2, fun _ => h3 rfl, fun a => ⟨0, by rw [← h4]; simp⟩⟩

/-! ## The counterexample -/

/-- A heavy particle in one corner of a cube, and five light ones. -/
noncomputable def cornerObject : List (Particle ℝ) :=
  [⟨![0, 0, 0], 995⟩, ⟨![1, 1, 0], 1⟩, ⟨![1, 1, 0], 1⟩, ⟨![1, 0, 1], 1⟩, ⟨![0, 1, 1], 1⟩, ⟨![1, 1, 1], 1⟩]

/-- As long as all particles are inside, only the radius shrinks. -/
theorem calcMode_shrink (k fuel : Nat) (ps : List (Particle ℝ)) (rad : ℝ) (h5 : 5 ≤ ps.length)
    (h : ∀ p ∈ ps, ∀ j < k, Periodic.dist p.pos (weightedMean ps) < rad * 0.83 ^ j) :
    calcMode (fuel + k) ps rad = calcMode fuel ps (rad * 0.83 ^ k) := by
  induction k generalizing rad with
  | zero => simp
  | succ k ih =>
    have hf : (ps.filter fun p => decide (Periodic.dist p.pos (weightedMean ps) < rad)) = ps := by
      rw [List.filter_eq_self]
      intro p hp
      simpa using h p hp 0 (Nat.succ_pos k)
    rw [← Nat.add_assoc, calcMode_succ, hf, if_neg (by omega), ih]
    · congr 1
      ring
    · intro p hp j hj
      have := h p hp (j + 1) (Nat.succ_lt_succ hj)
      calc _ < _ := this
        _ = _ := by ring

theorem dist_lt (a b : Vec ℝ) (r : ℝ) (hr : 0 < r) :
    Periodic.dist a b < r ↔ (a 0 - b 0) ^ 2 + (a 1 - b 1) ^ 2 + (a 2 - b 2) ^ 2 < r ^ 2 := by
  unfold Periodic.dist
  rw [Real.sqrt_lt' hr]

theorem corner_mean : weightedMean cornerObject = ![4 / 1000, 4 / 1000, 3 / 1000] := by
  funext i
  fin_cases i <;> norm_num [weightedMean, totalMass, cornerObject]

theorem corner_mean5 : weightedMean (cornerObject.take 5) = ![3 / 999, 3 / 999, 2 / 999] := by
  funext i
  fin_cases i <;> norm_num [weightedMean, totalMass, cornerObject]

theorem vec2 (a b c : ℝ) : (![a, b, c] : Vec ℝ) 2 = c := rfl

/-- Nothing has to be unwrapped. -/
theorem corner_unwrapped (choose : List Nat) :
    List.zipWith (fun x p => (⟨x, p.mass⟩ : Particle ℝ))
      (respectPBCNoRef choose (cornerObject.map fun p => p.pos) 100) cornerObject = cornerObject := by
  have hr : ∀ i, 0 ≤ reference choose (cornerObject.map fun p => p.pos) i ∧
      reference choose (cornerObject.map fun p => p.pos) i ≤ 1 := by
    intro i
    have hp : ∀ v ∈ (choose.filterMap fun j => (cornerObject.map fun p => p.pos)[j]?), 0 ≤ v i ∧ v i ≤ 1 := by
      intro v hv
      obtain ⟨j, -, hj⟩ := List.mem_filterMap.1 hv
      have := List.mem_of_getElem? hj
      simp only [cornerObject, List.map_cons, List.map_nil, List.mem_cons, List.not_mem_nil, or_false] at this
      rcases this with rfl | rfl | rfl | rfl | rfl | rfl <;> fin_cases i <;> norm_num
    unfold reference
    constructor
    · apply div_nonneg _ (Nat.cast_nonneg _)
      exact sum_map_nonneg' _ _ fun v hv => (hp v hv).1
    · apply div_le_one_of_le₀ _ (Nat.cast_nonneg _)
      have := sum_map_le' _ (fun v : Vec ℝ => v i) (fun _ => 1) fun v hv => (hp v hv).2
      simpa using this
  have hu : ∀ i, ∀ x : ℝ, 0 ≤ x → x ≤ 1 → unwrapAxis 100 (reference choose (cornerObject.map fun p => p.pos) i) x = x := by
    intro i x h0 h1
    have := hr i
    unfold unwrapAxis
    simp only
    rw [if_neg (by linarith), if_neg (by linarith)]
  have : respectPBCNoRef choose (cornerObject.map fun p => p.pos) 100 = cornerObject.map fun p => p.pos := by
    unfold respectPBCNoRef
    rw [if_pos (by norm_num)]
    conv_rhs => rw [← List.map_id (cornerObject.map fun p => p.pos)]
    apply List.map_congr_left
    intro v hv
    funext i
    apply hu <;>
    · simp only [cornerObject, List.map_cons, List.map_nil, List.mem_cons, List.not_mem_nil, or_false] at hv
      rcases hv with rfl | rfl | rfl | rfl | rfl | rfl <;> fin_cases i <;> norm_num
  rw [this]
  simp [cornerObject]

theorem corner_mode1000 (fuel : Nat) : calcMode (fuel + 37) cornerObject 1000 = some ![3 / 999, 3 / 999, 2 / 999] := by
  rw [show fuel + 37 = (fuel + 2) + 35 by omega, calcMode_shrink 35]
  · have hf : (cornerObject.filter fun p => decide (Periodic.dist p.pos (weightedMean cornerObject) < 1000 * 0.83 ^ 35)) =
        cornerObject.take 5 := by
      rw [corner_mean]
      simp only [dist_lt _ _ (1000 * 0.83 ^ 35 : ℝ) (by norm_num)]
      norm_num [cornerObject, List.filter_cons, vec2]
    rw [show fuel + 2 = (fuel + 1) + 1 from rfl, calcMode_succ, hf, if_neg (by simp [cornerObject]), calcMode_succ, if_pos]
    · rw [corner_mean5]
    · rw [corner_mean5]
      simp only [dist_lt _ _ (1000 * 0.83 ^ 35 * 0.83 : ℝ) (by norm_num)]
      norm_num [cornerObject, List.filter_cons, vec2]
  · simp [cornerObject]
  · intro p hp j hj
    have h1 : (1000 * 0.83 ^ 34 : ℝ) ≤ 1000 * 0.83 ^ j := by
      apply mul_le_mul_of_nonneg_left _ (by norm_num)
      exact pow_le_pow_of_le_one (by norm_num) (by norm_num) (by omega)
    refine lt_of_lt_of_le ?_ h1
    rw [corner_mean, dist_lt _ _ _ (by norm_num)]
    simp only [cornerObject, List.mem_cons, List.not_mem_nil, or_false] at hp
    rcases hp with rfl | rfl | rfl | rfl | rfl | rfl <;> norm_num [vec2]

theorem corner_modeExtent (fuel : Nat) : calcMode (fuel + 1) cornerObject 1 = some ![4 / 1000, 4 / 1000, 3 / 1000] := by
  rw [calcMode_succ, if_pos, corner_mean]
  rw [corner_mean]
  simp only [dist_lt _ _ (1 : ℝ) (by norm_num)]
  norm_num [cornerObject, List.filter_cons, vec2]

/-- C125 is false with `CENTER = 'mode'`: the search begins with a sphere of radius 1000 for density profiles and
`getMassesCenters`, but with the extent of the object for shapes, and ends at another point.  Here the object is inside a box of
100, has six particles and extent 1 (all in Mpc/h), and the recursion limit is that of Python. -/
theorem C125_mode_refuted (choose : Nat → List Nat) :
    (∀ p ∈ cornerObject, 0 < p.mass ∧ ∀ i, 0 ≤ p.pos i ∧ p.pos i < 100) ∧
    ∃ u v, centreOf choose 1000 100 .mode cornerObject = some u ∧ shapeCentre choose 1000 100 .mode cornerObject = some v ∧
      u ≠ v := by
  refine ⟨?_, ![3 / 999, 3 / 999, 2 / 999], ![4 / 1000, 4 / 1000, 3 / 1000], ?_, ?_, ?_⟩
  · intro p hp
    simp only [cornerObject, List.mem_cons, List.not_mem_nil, or_false] at hp
    rcases hp with rfl | rfl | rfl | rfl | rfl | rfl <;>
      exact ⟨by norm_num, fun i => by fin_cases i <;> norm_num⟩
  · unfold centreOf
    simp only [corner_unwrapped]
    exact corner_mode1000 963
  · unfold shapeCentre
    simp only [corner_unwrapped]
    have : ∀ a, axisExtent cornerObject a = 1 := by
      intro a
      fin_cases a <;> norm_num [axisExtent, cornerObject, List.max?_cons', List.min?_cons', vec2]
    simp only [this, max_self]
    exact corner_modeExtent 999
  · intro h
    have := congrFun h 0
    norm_num at this

example : shapeCentre (fun _ => []) 1000 (2 * 100) .mode (relabelAll (Equiv.swap 0 1) 2 cornerObject) =
    some (relabel (Equiv.swap 0 1) 2 ![4 / 1000, 4 / 1000, 3 / 1000]) := by
  rw [C125_shapes _ _ _ _ _ _ _ two_pos]
  have := corner_modeExtent 999
  unfold shapeCentre
  simp only [corner_unwrapped]
  have h : ∀ a, axisExtent cornerObject a = 1 := by
    intro a
    fin_cases a <;> norm_num [axisExtent, cornerObject, List.max?_cons', List.min?_cons', vec2]
  simp only [h, max_self]
  rw [show (1000 : Nat) = 999 + 1 from rfl, this]
  rfl

end Verif.Api
