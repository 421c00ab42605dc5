import Verif.Mock.Enclosed
import Mathlib.MeasureTheory.Measure.Lebesgue.Basic

/-!
# How the particles of a mock halo are distributed in their shells (C163)
-/

namespace Verif.Mock

open MeasureTheory

/-! ## Specification -/

/-- Distance from the origin. -/
noncomputable def distance (q : ℝ × ℝ × ℝ) : ℝ := √(q.1 ^ 2 + q.2.1 ^ 2 + q.2.2 ^ 2)

/-- The shell between the spheres with radii `inner` and `outer`: the fraction of its volume within the distance `t`. -/
noncomputable def volumeFraction (inner outer t : ℝ) : ℝ := (t ^ 3 - inner ^ 3) / (outer ^ 3 - inner ^ 3)

/-- The probability that a particle of shell `k` of `n` is placed within the distance `t`, for a given direction: the random number is distributed
uniformly in an interval of length `1 / n`, so it is `n` times the measure of the numbers for which this is the case. -/
noncomputable def chanceWithin (s : Axes) (n k : Nat) (x y z t : ℝ) : ℝ :=
  n * (volume {v : ℝ | (k : ℝ) / n ≤ v ∧ v < (k + 1 : ℝ) / n ∧ distance (place s ⟨x, y, z, v⟩) ≤ t}).toReal

/-! ## Proof -/

/-- The direction of a particle is that of the normal vector drawn. -/
theorem direction (x y z : ℝ) (h : (x, y, z) ≠ (0, 0, 0)) :
    Real.sin (arctan2 (√(x ^ 2 + y ^ 2)) z) * Real.cos (arctan2 y x) = x / √(x ^ 2 + y ^ 2 + z ^ 2) ∧
    Real.sin (arctan2 (√(x ^ 2 + y ^ 2)) z) * Real.sin (arctan2 y x) = y / √(x ^ 2 + y ^ 2 + z ^ 2) ∧
    Real.cos (arctan2 (√(x ^ 2 + y ^ 2)) z) = z / √(x ^ 2 + y ^ 2 + z ^ 2) := by
  unfold arctan2
  have n1 : ‖(⟨z, √(x ^ 2 + y ^ 2)⟩ : ℂ)‖ = √(x ^ 2 + y ^ 2 + z ^ 2) := by
    rw [Complex.norm_def, Complex.normSq_mk, Real.mul_self_sqrt (by positivity)]
    congr 1
    ring
  have n2 : ‖(⟨x, y⟩ : ℂ)‖ = √(x ^ 2 + y ^ 2) := by
    rw [Complex.norm_def, Complex.normSq_mk]
    congr 1
    ring
  have hne : (⟨z, √(x ^ 2 + y ^ 2)⟩ : ℂ) ≠ 0 := by
    intro h0
    have hz : z = 0 := congrArg Complex.re h0
    have hxy : √(x ^ 2 + y ^ 2) = 0 := congrArg Complex.im h0
    rw [Real.sqrt_eq_zero (by positivity)] at hxy
    have hx : x = 0 := by nlinarith [sq_nonneg x, sq_nonneg y]
    have hy : y = 0 := by nlinarith [sq_nonneg x, sq_nonneg y]
    exact h (by rw [hx, hy, hz])
  rw [Complex.sin_arg, Complex.cos_arg hne, n1]
  by_cases h0 : (⟨x, y⟩ : ℂ) = 0
  · have hx : x = 0 := congrArg Complex.re h0
    have hy : y = 0 := congrArg Complex.im h0
    subst hx hy
    simp
  · have hpos : 0 < √(x ^ 2 + y ^ 2) := by rw [← n2]; exact norm_pos_iff.2 h0
    rw [Complex.sin_arg, Complex.cos_arg h0, n2]
    refine ⟨?_, ?_, rfl⟩ <;> field_simp

theorem place_sphere (s : Axes) (n : Nat) (hs : Shells s n) (hab : s.b = s.a) (hac : s.c = s.a) (k : Nat) (hk : k < n) (x y z v : ℝ)
    (h1 : (k : ℝ) / n ≤ v) (h2 : v < (k + 1 : ℝ) / n) :
    distance (place s ⟨x, y, z, v⟩) = (0 :: s.a).getD k 0 + (v * n - k) * (s.a.getD k 0 - (0 :: s.a).getD k 0) := by
  have hb := (axis_between hk s.a hs.la hs.pa hs.sa h1 h2.le).2.2
  have hi := interp_between hk (0 :: s.a) h1 h2.le
  have e : (0 :: s.a).getD (k + 1) 0 = s.a.getD k 0 := by simp
  rw [e] at hi
  rw [← hi]
  unfold distance place
  simp only [hs.la, hab, hac]
  have hu := unit_angles (arctan2 (√(x ^ 2 + y ^ 2)) z) (arctan2 y x)
  rw [mul_pow _ (interp _ _ _), mul_pow _ (interp _ _ _), mul_pow _ (interp _ _ _), ← add_mul, ← add_mul, hu, one_mul, Real.sqrt_sq hb]

theorem inner_lt_outer (s : Axes) (n : Nat) (hs : Shells s n) (hsa : s.a.Pairwise (· < ·)) (k : Nat) (hk : k < n) :
    0 ≤ (0 :: s.a).getD k 0 ∧ (0 :: s.a).getD k 0 < s.a.getD k 0 := by
  have hla := hs.la
  cases k with
  | zero => exact ⟨by simp, by simpa using getD_pos hs.pa (by omega : 0 < s.a.length)⟩
  | succ k =>
    have e : (0 :: s.a).getD (k + 1) 0 = s.a.getD k 0 := by simp
    rw [e]
    refine ⟨(getD_pos hs.pa (by omega)).le, ?_⟩
    rw [List.getD_eq_getElem _ _ (by omega), List.getD_eq_getElem _ _ (by omega)]
    exact List.pairwise_iff_getElem.mp hsa k (k + 1) (by omega) (by omega) (by omega)

/-- C163 (partial). What holds: for ellipsoids, particles lie in the direction of the normal vectors drawn, scaled by semi-axes between those of the two surfaces, so
that for spheres directions are isotropic; and then the distances of the particles of a shell from the centre are distributed uniformly between the two radii.
Missing: the particles are not uniform in volume, see `C163_uniform_refuted`. -/
theorem C163_distribution_partial (s : Axes) (n : Nat) (hs : Shells s n) (hsa : s.a.Pairwise (· < ·)) (k : Nat) (hk : k < n)
    (x y z : ℝ) (hX : (x, y, z) ≠ (0, 0, 0)) :
    (∀ v, (k : ℝ) / n ≤ v → v < (k + 1 : ℝ) / n → ∃ A B C : ℝ,
      (0 :: s.a).getD k 0 ≤ A ∧ A ≤ s.a.getD k 0 ∧ (0 :: s.b).getD k 0 ≤ B ∧ B ≤ s.b.getD k 0 ∧ (0 :: s.c).getD k 0 ≤ C ∧ C ≤ s.c.getD k 0 ∧
      place s ⟨x, y, z, v⟩ = (x / distance (x, y, z) * A, y / distance (x, y, z) * B, z / distance (x, y, z) * C)) ∧
    (s.b = s.a → s.c = s.a → ∀ t, (0 :: s.a).getD k 0 ≤ t → t < s.a.getD k 0 →
      chanceWithin s n k x y z t = (t - (0 :: s.a).getD k 0) / (s.a.getD k 0 - (0 :: s.a).getD k 0)) := by
  obtain ⟨-, hlt⟩ := inner_lt_outer s n hs hsa k hk
  have hn : (0 : ℝ) < n := by exact_mod_cast (by omega : 0 < n)
  refine ⟨?_, ?_⟩
  · intro v h1 h2
    obtain ⟨a1, a2, -⟩ := axis_between hk s.a hs.la hs.pa hs.sa h1 h2.le
    obtain ⟨b1, b2, -⟩ := axis_between hk s.b hs.lb hs.pb hs.sb h1 h2.le
    obtain ⟨c1, c2, -⟩ := axis_between hk s.c hs.lc hs.pc hs.sc h1 h2.le
    refine ⟨_, _, _, a1, a2, b1, b2, c1, c2, ?_⟩
    obtain ⟨d1, d2, d3⟩ := direction x y z hX
    unfold place distance
    simp only [hs.la, d1, d2, d3]
  · intro hab hac t ht1 ht2
    have hset : {v : ℝ | (k : ℝ) / n ≤ v ∧ v < (k + 1 : ℝ) / n ∧ distance (place s ⟨x, y, z, v⟩) ≤ t} =
        Set.Icc ((k : ℝ) / n) ((k + (t - (0 :: s.a).getD k 0) / (s.a.getD k 0 - (0 :: s.a).getD k 0)) / n) := by
      have hd : 0 < s.a.getD k 0 - (0 :: s.a).getD k 0 := by linarith
      ext v
      simp only [Set.mem_ofPred_eq, Set.mem_Icc]
      have key : ∀ v : ℝ, (0 :: s.a).getD k 0 + (v * n - k) * (s.a.getD k 0 - (0 :: s.a).getD k 0) ≤ t ↔
          v ≤ (k + (t - (0 :: s.a).getD k 0) / (s.a.getD k 0 - (0 :: s.a).getD k 0)) / n := by
        intro v
        rw [le_div_iff₀ hn, ← sub_le_iff_le_add', le_div_iff₀ hd]
        constructor <;> intro h <;> linarith
      constructor
      · rintro ⟨h1, h2, h3⟩
        rw [place_sphere s n hs hab hac k hk x y z v h1 h2] at h3
        exact ⟨h1, (key v).1 h3⟩
      · rintro ⟨h1, h2⟩
        have h3 : v < (k + 1 : ℝ) / n := by
          refine h2.trans_lt ?_
          rw [div_lt_div_iff_of_pos_right hn, add_lt_add_iff_left, div_lt_one hd]
          linarith
        exact ⟨h1, h3, by rw [place_sphere s n hs hab hac k hk x y z v h1 h3]; exact (key v).2 h2⟩
    unfold chanceWithin
    rw [hset, Real.volume_Icc, ENNReal.toReal_ofReal, ← sub_div, add_sub_cancel_left]
    · field_simp
    · rw [← sub_div, add_sub_cancel_left]
      refine div_nonneg (div_nonneg (by linarith) (by linarith)) hn.le

/-- C163 is false: within spherical shells (the innermost ball included) particles are concentrated towards the centre.  Whatever the shells and the direction, the chance to be within any
distance between the radii of the shell is larger than the fraction of the volume of the shell within that distance. -/
theorem C163_uniform_refuted (s : Axes) (n : Nat) (hs : Shells s n) (hsa : s.a.Pairwise (· < ·)) (hab : s.b = s.a) (hac : s.c = s.a)
    (k : Nat) (hk : k < n) (x y z : ℝ) (hX : (x, y, z) ≠ (0, 0, 0)) (t : ℝ) (ht1 : (0 :: s.a).getD k 0 < t) (ht2 : t < s.a.getD k 0) :
    volumeFraction ((0 :: s.a).getD k 0) (s.a.getD k 0) t < chanceWithin s n k x y z t := by
  rw [(C163_distribution_partial s n hs hsa k hk x y z hX).2 hab hac t ht1.le ht2]
  obtain ⟨h0, hlt⟩ := inner_lt_outer s n hs hsa k hk
  generalize (0 :: s.a).getD k 0 = r at *
  generalize s.a.getD k 0 = R at *
  unfold volumeFraction
  have hR3 : 0 < R ^ 3 - r ^ 3 := by
    have := pow_lt_pow_left₀ hlt h0 (by norm_num : (3 : Nat) ≠ 0)
    linarith
  rw [div_lt_div_iff₀ hR3 (by linarith)]
  have e : (t - r) * (R ^ 3 - r ^ 3) - (t ^ 3 - r ^ 3) * (R - r) = (t - r) * (R - r) * ((R - t) * (R + t + r)) := by ring
  have : 0 < (t - r) * (R - r) * ((R - t) * (R + t + r)) := by
    apply mul_pos (mul_pos (by linarith) (by linarith)) (mul_pos (by linarith) (by linarith))
  linarith

/-- Half of the particles of a ball are in the inner eighth of its volume. -/
example : chanceWithin ⟨[1], [1], [1]⟩ 1 0 1 2 3 (1 / 2) = 1 / 2 ∧ volumeFraction 0 1 (1 / 2) = 1 / 8 := by
  have hs : Shells ⟨[1], [1], [1]⟩ 1 := by constructor <;> simp
  have := (C163_distribution_partial ⟨[1], [1], [1]⟩ 1 hs (by simp) 0 (by norm_num) 1 2 3 (by simp)).2 rfl rfl (1 / 2)
    (by simp) (by norm_num)
  refine ⟨by rw [this]; simp, by norm_num [volumeFraction]⟩

/-! ## Ellipsoids -/

/-- The probability that a point drawn from the ellipsoid with semi-axes `a, b, c` is within the ellipsoid which is smaller by the factor `t`, for a given normal vector: the measure of the
random numbers between 0 and 1 for which this is the case. -/
noncomputable def chanceInside (a b c : ℝ) (g : ℝ × ℝ × ℝ) (t : ℝ) : ℝ :=
  (volume {w : ℝ | 0 ≤ w ∧ w < 1 ∧ form (t * a) (t * b) (t * c) (ellipsoidPoint a b c g w) ≤ 1}).toReal

/-- C163. Points drawn from an ellipsoid are uniform in volume: stretched back to the unit ball they lie in the direction of the normal vector drawn, and the chance to be within the ellipsoid smaller
by the factor `t` is `t ^ 3`, the fraction of the volume. -/
theorem C163_ellipsoid (a b c : ℝ) (ha : 0 < a) (hb : 0 < b) (hc : 0 < c) (g : ℝ × ℝ × ℝ) (hg : g ≠ 0) :
    (∀ w, 0 ≤ w → w < 1 → ∃ r, 0 ≤ r ∧ r ≤ 1 ∧ ellipsoidPoint a b c g w =
      (a * (r * (g.1 / distance g)), b * (r * (g.2.1 / distance g)), c * (r * (g.2.2 / distance g)))) ∧
    ∀ t, 0 < t → t ≤ 1 → chanceInside a b c g t = t ^ 3 := by
  refine ⟨?_, ?_⟩
  · intro w h0 h1
    refine ⟨w ^ ((1 : ℝ) / 3), Real.rpow_nonneg h0 _, Real.rpow_le_one h0 h1.le (by norm_num), ?_⟩
    have inv : ∀ x : ℝ, 0 < x → (√(1 / x ^ 2))⁻¹ = x := by
      intro x hx
      rw [Real.sqrt_div zero_le_one, Real.sqrt_one, Real.sqrt_sq hx.le, one_div, inv_inv]
    unfold ellipsoidPoint distance
    simp only [inv a ha, inv b hb, inv c hc, mul_div_assoc]
  · intro t ht ht1
    have hset : {w : ℝ | 0 ≤ w ∧ w < 1 ∧ form (t * a) (t * b) (t * c) (ellipsoidPoint a b c g w) ≤ 1} =
        {w : ℝ | 0 ≤ w ∧ w < 1 ∧ w ≤ t ^ 3} := by
      ext w
      simp only [Set.mem_ofPred_eq]
      refine and_congr_right fun h0 => and_congr_right fun h1 => ?_
      have key := (C93_in_ellipsoid a b c ha hb hc g hg w h0 h1.le).1
      have e : form (t * a) (t * b) (t * c) (ellipsoidPoint a b c g w) = form a b c (ellipsoidPoint a b c g w) / t ^ 2 := by
        unfold form
        field_simp
      rw [e, key, div_le_one (pow_pos ht 2)]
      have hw : 0 ≤ w ^ ((1 : ℝ) / 3) := Real.rpow_nonneg h0 _
      have hw3 : (w ^ ((1 : ℝ) / 3)) ^ 3 = w := by
        rw [← Real.rpow_natCast, ← Real.rpow_mul h0]
        norm_num
      rw [pow_le_pow_iff_left₀ hw ht.le two_ne_zero]
      constructor
      · intro h
        rw [← hw3]
        exact pow_le_pow_left₀ hw h 3
      · intro h
        rw [← hw3] at h
        exact (pow_le_pow_iff_left₀ hw ht.le three_ne_zero).1 h
    have ht3 : t ^ 3 ≤ 1 := pow_le_one₀ ht.le ht1
    unfold chanceInside
    rw [hset]
    rcases eq_or_lt_of_le ht1 with rfl | ht1
    · have : {w : ℝ | 0 ≤ w ∧ w < 1 ∧ w ≤ 1 ^ 3} = Set.Ico 0 1 := by
        ext w
        simp only [Set.mem_ofPred_eq, Set.mem_Ico]
        constructor
        · exact fun h => ⟨h.1, h.2.1⟩
        · exact fun h => ⟨h.1, h.2, by rw [one_pow]; exact h.2.le⟩
      rw [this, Real.volume_Ico]
      simp
    · have ht4 : t ^ 3 < 1 := pow_lt_one₀ ht.le ht1 three_ne_zero
      have : {w : ℝ | 0 ≤ w ∧ w < 1 ∧ w ≤ t ^ 3} = Set.Icc 0 (t ^ 3) := by
        ext w
        simp only [Set.mem_ofPred_eq, Set.mem_Icc]
        constructor
        · exact fun h => ⟨h.1, h.2.2⟩
        · exact fun h => ⟨h.1, h.2.trans_lt ht4, h.2⟩
      rw [this, Real.volume_Icc, sub_zero, ENNReal.toReal_ofReal (by positivity)]

/-- An eighth of the points is in the ellipsoid of half the size. -/
example : chanceInside 3 2 1 (1, 2, 3) (1 / 2) = 1 / 8 := by
  rw [(C163_ellipsoid 3 2 1 (by norm_num) (by norm_num) (by norm_num) (1, 2, 3) (by simp)).2 _ (by norm_num) (by norm_num)]
  norm_num

end Verif.Mock
