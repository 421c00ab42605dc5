import Verif.Mock.Model
import Mathlib.Analysis.SpecialFunctions.Pow.Real
import Mathlib.Data.List.GetD
import Mathlib.NumberTheory.Real.Irrational
import Mathlib.Analysis.SpecialFunctions.Trigonometric.Angle
import Mathlib.Tactic.FieldSimp
import Mathlib.Tactic.Linarith
import Mathlib.Tactic.Positivity
import Mathlib.Tactic.Ring
import Mathlib.Tactic.NormNum

/-!
# Properties of sample points (C64, C66, C93, C94)
-/

namespace Verif.Mock

/-! ## Specification -/

/-- The value of the quadratic form of an ellipsoid with semi-axes `a, b, c`: at most 1 inside, 1 on the
surface. -/
noncomputable def form (a b c : ℝ) (p : ℝ × ℝ × ℝ) : ℝ := (p.1 / a) ^ 2 + (p.2.1 / b) ^ 2 + (p.2.2 / c) ^ 2

/-- Positive and increasing semi-axes of `n` shells. -/
structure Shells (s : Axes) (n : Nat) : Prop where
  la : s.a.length = n
  lb : s.b.length = n
  lc : s.c.length = n
  pa : ∀ x ∈ s.a, 0 < x
  pb : ∀ x ∈ s.b, 0 < x
  pc : ∀ x ∈ s.c, 0 < x
  sa : s.a.Pairwise (· ≤ ·)
  sb : s.b.Pairwise (· ≤ ·)
  sc : s.c.Pairwise (· ≤ ·)

/-! ## Interpolation -/

theorem filter_range_lt (m N : Nat) (h : m ≤ N) : ((List.range N).filter fun j => decide (j < m)).length = m := by
  induction N with
  | zero => simp at h; simp [h]
  | succ N ih =>
    rw [List.range_succ, List.filter_append, List.length_append]
    rcases Nat.lt_or_ge N m with h' | h'
    · have : m = N + 1 := by omega
      subst this
      have : (List.range N).filter (fun j => decide (j < N + 1)) = List.range N := by
        rw [List.filter_eq_self]
        intro x hx
        have := List.mem_range.mp hx
        simp; omega
      rw [this]
      simp
    · rw [ih h']
      have : ¬ N < m := by omega
      simp [this]

theorem search_knots {n k : Nat} (hk : k < n) {v : ℝ} (h1 : (k : ℝ) / n ≤ v) (h2 : v ≤ (k + 1 : ℝ) / n) :
    searchsorted (knots n) v = if v = (k : ℝ) / n then k else k + 1 := by
  have hn : (0 : ℝ) < n := by exact_mod_cast (by omega : 0 < n)
  unfold searchsorted knots
  rw [List.filter_map, List.length_map]
  split
  · rename_i hv
    rw [← filter_range_lt k (n + 1) (by omega)]
    congr 1
    apply List.filter_congr
    intro j _
    simp only [Function.comp, hv]
    rw [decide_eq_decide, div_lt_div_iff_of_pos_right hn]
    exact Nat.cast_lt
  · rename_i hv
    rw [← filter_range_lt (k + 1) (n + 1) (by omega)]
    congr 1
    apply List.filter_congr
    intro j _
    simp only [Function.comp]
    rw [decide_eq_decide]
    constructor
    · intro h
      have := lt_of_lt_of_le h h2
      rw [div_lt_div_iff_of_pos_right hn] at this
      exact_mod_cast this
    · intro h
      have h3 : (j : ℝ) / n ≤ (k : ℝ) / n := by
        rw [div_le_div_iff_of_pos_right hn]
        exact_mod_cast (by omega : j ≤ k)
      exact lt_of_le_of_lt h3 (lt_of_le_of_ne h1 (Ne.symm hv))

theorem knots_getD {n j : Nat} (h : j ≤ n) : (knots n).getD j 0 = (j : ℝ) / n := by
  have hj : j < (knots n).length := by simp [knots]; omega
  rw [List.getD_eq_getElem _ _ hj]
  simp [knots]

/-- Between the knots `k` and `k+1` the value is on the segment between the values there. -/
theorem interp_between {n k : Nat} (hk : k < n) (y : List ℝ) {v : ℝ} (h1 : (k : ℝ) / n ≤ v) (h2 : v ≤ (k + 1 : ℝ) / n) :
    interp (knots n) y v = y.getD k 0 + (v * n - k) * (y.getD (k + 1) 0 - y.getD k 0) := by
  have hn : (0 : ℝ) < n := by exact_mod_cast (by omega : 0 < n)
  have hlen : (knots n).length - 1 = n := by simp [knots]
  unfold interp
  rw [search_knots hk h1 h2, hlen]
  by_cases hv : v = (k : ℝ) / n
  · rw [if_pos hv]
    have hvk : v * n - k = 0 := by rw [hv]; field_simp; ring
    rw [hvk, zero_mul, add_zero]
    rcases Nat.eq_zero_or_pos k with hk0 | hk0
    · subst hk0
      have hhi : min (max 0 1) n = 1 := by omega
      simp only [hhi]
      rw [show (1 : Nat) - 1 = 0 from rfl, knots_getD (Nat.zero_le n), hv]
      simp
    · have hhi : min (max k 1) n = k := by omega
      simp only [hhi]
      rw [knots_getD (by omega), knots_getD (by omega), hv, Nat.cast_sub (by omega)]
      field_simp
      ring_nf
  · rw [if_neg hv]
    have hhi : min (max (k + 1) 1) n = k + 1 := by omega
    simp only [hhi, Nat.add_sub_cancel]
    rw [knots_getD (by omega), knots_getD (by omega)]
    push_cast
    field_simp
    ring

theorem getD_mono {l : List ℝ} (hs : l.Pairwise (· ≤ ·)) {i j : Nat} (hij : i ≤ j) (hj : j < l.length) :
    l.getD i 0 ≤ l.getD j 0 := by
  rw [List.getD_eq_getElem _ _ (by omega), List.getD_eq_getElem _ _ hj]
  rcases Nat.eq_or_lt_of_le hij with rfl | h
  · exact le_rfl
  · exact List.pairwise_iff_getElem.mp hs i j (by omega) hj h

/-- The interpolated semi-axis lies between the inner and the outer one. -/
theorem axis_between {n k : Nat} (hk : k < n) (l : List ℝ) (hl : l.length = n) (hp : ∀ x ∈ l, 0 < x)
    (hs : l.Pairwise (· ≤ ·)) {v : ℝ} (h1 : (k : ℝ) / n ≤ v) (h2 : v ≤ (k + 1 : ℝ) / n) :
    (0 :: l).getD k 0 ≤ interp (knots n) (0 :: l) v ∧ interp (knots n) (0 :: l) v ≤ l.getD k 0 ∧
    0 ≤ interp (knots n) (0 :: l) v := by
  have hn : (0 : ℝ) < n := by exact_mod_cast (by omega : 0 < n)
  have hpos : ∀ j, j < n → 0 < l.getD j 0 := by
    intro j hj
    rw [List.getD_eq_getElem _ _ (by omega)]
    exact hp _ (List.getElem_mem _)
  rw [interp_between hk _ h1 h2]
  have e : (0 :: l).getD (k + 1) 0 = l.getD k 0 := by simp
  rw [e]
  have hle : (0 :: l).getD k 0 ≤ l.getD k 0 := by
    cases k with
    | zero => simpa using (hpos 0 hk).le
    | succ k => exact getD_mono hs (Nat.le_succ k) (by omega)
  have hin : 0 ≤ (0 :: l).getD k 0 := by
    cases k with
    | zero => simp
    | succ k => exact (hpos k (by omega)).le
  rw [div_le_iff₀ hn] at h1
  rw [le_div_iff₀ hn] at h2
  have ht0 : 0 ≤ v * n - k := by linarith
  have ht1 : v * n - k ≤ 1 := by linarith
  have hd : 0 ≤ l.getD k 0 - (0 :: l).getD k 0 := by linarith
  have m1 := mul_nonneg ht0 hd
  have m2 := mul_le_mul_of_nonneg_right ht1 hd
  refine ⟨by linarith, by linarith, by linarith⟩

/-- A unit vector. -/
theorem unit_angles (t f : ℝ) : (Real.sin t * Real.cos f) ^ 2 + (Real.sin t * Real.sin f) ^ 2 + Real.cos t ^ 2 = 1 := by
  have h1 := Real.sin_sq_add_cos_sq t
  have h2 := Real.sin_sq_add_cos_sq f
  have : (Real.sin t * Real.cos f) ^ 2 + (Real.sin t * Real.sin f) ^ 2 =
      Real.sin t ^ 2 * (Real.sin f ^ 2 + Real.cos f ^ 2) := by ring
  rw [this, h2]
  linarith

/-! ## C64 -/

/-- C64. For every draw belonging to shell `k`, the point is inside the outer ellipsoid of the shell and not
inside the inner one. -/
theorem C64_in_shell (s : Axes) (n : Nat) (hs : Shells s n) (k : Nat) (hk : k < n) (p : Draw)
    (h1 : (k : ℝ) / n ≤ p.rand) (h2 : p.rand ≤ (k + 1 : ℝ) / n) :
    form (s.a.getD k 0) (s.b.getD k 0) (s.c.getD k 0) (place s p) ≤ 1 ∧
    (0 < k → 1 ≤ form (s.a.getD (k - 1) 0) (s.b.getD (k - 1) 0) (s.c.getD (k - 1) 0) (place s p)) := by
  have pos : ∀ l : List ℝ, l.length = n → (∀ x ∈ l, 0 < x) → ∀ j, j < n → 0 < l.getD j 0 := by
    intro l hl hp j hj
    rw [List.getD_eq_getElem _ _ (by omega)]
    exact hp _ (List.getElem_mem _)
  obtain ⟨a1, a2, a3⟩ := axis_between hk s.a hs.la hs.pa hs.sa h1 h2
  obtain ⟨b1, b2, b3⟩ := axis_between hk s.b hs.lb hs.pb hs.sb h1 h2
  obtain ⟨c1, c2, c3⟩ := axis_between hk s.c hs.lc hs.pc hs.sc h1 h2
  unfold place form
  simp only [hs.la]
  set t := arctan2 (Real.sqrt (p.x ^ 2 + p.y ^ 2)) p.z
  set f := arctan2 p.y p.x
  set A := interp (knots n) (0 :: s.a) p.rand
  set B := interp (knots n) (0 :: s.b) p.rand
  set C := interp (knots n) (0 :: s.c) p.rand
  have hu := unit_angles t f
  set u := Real.sin t * Real.cos f
  set v := Real.sin t * Real.sin f
  set w := Real.cos t
  have up : ∀ X x : ℝ, 0 < x → 0 ≤ X → X ≤ x → ∀ q : ℝ, (q * X / x) ^ 2 ≤ q ^ 2 := by
    intro X x hx h0 hX q
    rw [mul_div_assoc, mul_pow]
    have h3 : X / x ≤ 1 := by rw [div_le_one hx]; exact hX
    have h4 : 0 ≤ X / x := div_nonneg h0 hx.le
    have h5 : (X / x) ^ 2 ≤ 1 := by nlinarith
    nlinarith [sq_nonneg q]
  have down : ∀ X x : ℝ, 0 < x → x ≤ X → ∀ q : ℝ, q ^ 2 ≤ (q * X / x) ^ 2 := by
    intro X x hx hX q
    rw [mul_div_assoc, mul_pow]
    have h3 : 1 ≤ X / x := by rw [one_le_div hx]; exact hX
    have h5 : 1 ≤ (X / x) ^ 2 := by nlinarith
    nlinarith [sq_nonneg q]
  constructor
  · have e1 := up A _ (pos s.a hs.la hs.pa k hk) a3 a2 u
    have e2 := up B _ (pos s.b hs.lb hs.pb k hk) b3 b2 v
    have e3 := up C _ (pos s.c hs.lc hs.pc k hk) c3 c2 w
    linarith
  · intro hk0
    obtain ⟨j, rfl⟩ : ∃ j, k = j + 1 := ⟨k - 1, by omega⟩
    rw [Nat.add_sub_cancel]
    have e1 := down A _ (pos s.a hs.la hs.pa j (by omega)) a1 u
    have e2 := down B _ (pos s.b hs.lb hs.pb j (by omega)) b1 v
    have e3 := down C _ (pos s.c hs.lc hs.pc j (by omega)) c1 w
    linarith

/-- C64. Off the common boundary, for strictly increasing semi-axes, the test `inShell` accepts the point for
its own shell. -/
theorem C64_inShell (s : Axes) (n : Nat) (hs : Shells s n) (hsa : s.a.Pairwise (· < ·)) (hsb : s.b.Pairwise (· < ·))
    (hsc : s.c.Pairwise (· < ·)) (k : Nat) (hk : k < n) (p : Draw)
    (h1 : (k : ℝ) / n < p.rand) (h2 : p.rand ≤ (k + 1 : ℝ) / n) : inShell (place s p) s k = true := by
  have hout := (C64_in_shell s n hs k hk p h1.le h2).1
  unfold form at hout
  unfold inShell
  split
  · rename_i hk0
    rw [Bool.and_eq_true, decide_eq_true_eq, decide_eq_true_eq]
    refine ⟨hout, ?_⟩
    have hn : (0 : ℝ) < n := by exact_mod_cast (by omega : 0 < n)
    have pos : ∀ l : List ℝ, l.length = n → (∀ x ∈ l, 0 < x) → ∀ j, j < n → 0 < l.getD j 0 := by
      intro l hl hp j hj
      rw [List.getD_eq_getElem _ _ (by omega)]
      exact hp _ (List.getElem_mem _)
    obtain ⟨j, rfl⟩ : ∃ j, k = j + 1 := ⟨k - 1, by omega⟩
    rw [Nat.add_sub_cancel]
    have strict : ∀ l : List ℝ, l.length = n → l.Pairwise (· < ·) →
        l.getD j 0 < interp (knots n) (0 :: l) p.rand := by
      intro l hl hs'
      rw [interp_between hk _ h1.le h2]
      have e1 : (0 :: l).getD (j + 1 + 1) 0 = l.getD (j + 1) 0 := by simp
      have e2 : (0 :: l).getD (j + 1) 0 = l.getD j 0 := by simp
      rw [e1, e2]
      have hlt : l.getD j 0 < l.getD (j + 1) 0 := by
        rw [List.getD_eq_getElem _ _ (by omega), List.getD_eq_getElem _ _ (by omega)]
        exact List.pairwise_iff_getElem.mp hs' j (j + 1) (by omega) (by omega) (by omega)
      have ht : 0 < p.rand * n - ((j + 1 : Nat) : ℝ) := by
        rw [div_lt_iff₀ hn] at h1
        linarith
      have := mul_pos ht (sub_pos.mpr hlt)
      linarith
    have a1 := strict s.a hs.la hsa
    have b1 := strict s.b hs.lb hsb
    have c1 := strict s.c hs.lc hsc
    unfold place
    simp only [hs.la]
    set t := arctan2 (Real.sqrt (p.x ^ 2 + p.y ^ 2)) p.z
    set f := arctan2 p.y p.x
    set A := interp (knots n) (0 :: s.a) p.rand
    set B := interp (knots n) (0 :: s.b) p.rand
    set C := interp (knots n) (0 :: s.c) p.rand
    have hu := unit_angles t f
    set u := Real.sin t * Real.cos f
    set v := Real.sin t * Real.sin f
    set w := Real.cos t
    have ratio : ∀ X x : ℝ, 0 < x → x < X → 1 < (X / x) ^ 2 := by
      intro X x hx hX
      have : 1 < X / x := by rw [one_lt_div hx]; exact hX
      nlinarith
    have ra := ratio A _ (pos s.a hs.la hs.pa j (by omega)) a1
    have rb := ratio B _ (pos s.b hs.lb hs.pb j (by omega)) b1
    have rc := ratio C _ (pos s.c hs.lc hs.pc j (by omega)) c1
    rw [mul_div_assoc, mul_div_assoc, mul_div_assoc, mul_pow, mul_pow, mul_pow]
    set x := (A / s.a.getD j 0) ^ 2
    set y := (B / s.b.getD j 0) ^ 2
    set z := (C / s.c.getD j 0) ^ 2
    have hm : ∃ m, 1 < m ∧ m ≤ x ∧ m ≤ y ∧ m ≤ z :=
      ⟨min x (min y z), by simp [ra, rb, rc], min_le_left _ _, (min_le_right _ _).trans (min_le_left _ _),
        (min_le_right _ _).trans (min_le_right _ _)⟩
    obtain ⟨m, m1, m2, m3, m4⟩ := hm
    nlinarith [sq_nonneg u, sq_nonneg v, sq_nonneg w]
  · simpa using hout

/-- The comment in the code, that all points satisfy `inShell`, is false for the smallest possible random
number of a shell: the point is on the inner ellipsoid then. -/
theorem C64_boundary (s : Axes) (n : Nat) (hs : Shells s n) (k : Nat) (hk : k < n) (hk0 : 0 < k) (p : Draw)
    (h1 : p.rand = (k : ℝ) / n) : inShell (place s p) s k = false := by
  have hn : (0 : ℝ) < n := by exact_mod_cast (by omega : 0 < n)
  obtain ⟨j, rfl⟩ : ∃ j, k = j + 1 := ⟨k - 1, by omega⟩
  have h2 : p.rand ≤ ((j + 1 : Nat) + 1 : ℝ) / n := by
    rw [h1, div_le_div_iff_of_pos_right hn]; linarith
  have val : ∀ l : List ℝ, interp (knots n) (0 :: l) p.rand = l.getD j 0 := by
    intro l
    rw [interp_between hk _ h1.ge h2]
    have e2 : (0 :: l).getD (j + 1) 0 = l.getD j 0 := by simp
    have e3 : p.rand * n - ((j + 1 : Nat) : ℝ) = 0 := by rw [h1]; field_simp; ring
    rw [e2, e3]
    ring
  have pos : ∀ l : List ℝ, l.length = n → (∀ x ∈ l, 0 < x) → l.getD j 0 ≠ 0 := by
    intro l hl hp
    rw [List.getD_eq_getElem _ _ (by omega)]
    exact (hp _ (List.getElem_mem _)).ne'
  unfold inShell
  rw [if_pos hk0, Bool.and_eq_false_iff]
  right
  rw [decide_eq_false_iff_not, Nat.add_sub_cancel]
  unfold place
  simp only [hs.la, val]
  rw [mul_div_assoc, mul_div_assoc, mul_div_assoc, div_self (pos s.a hs.la hs.pa), div_self (pos s.b hs.lb hs.pb),
    div_self (pos s.c hs.lc hs.pc), mul_one, mul_one, mul_one, unit_angles]
  exact lt_irrefl _

/-- Two shells, a point in the second. -/
example : Shells ⟨[1, 2], [1, 2], [1, 3]⟩ 2 ∧ ((1 : Nat) : ℝ) / (2 : Nat) < 3 / 4 ∧ (3 / 4 : ℝ) ≤ (((1 : Nat) : ℝ) + 1) / (2 : Nat) := by
  refine ⟨?_, by norm_num, by norm_num⟩
  constructor <;> simp

/-! ## C93 -/

/-- C93. Points drawn from an ellipsoid are in it. -/
theorem C93_in_ellipsoid (a b c : ℝ) (ha : 0 < a) (hb : 0 < b) (hc : 0 < c) (g : ℝ × ℝ × ℝ) (hg : g ≠ 0) (w : ℝ) (h0 : 0 ≤ w)
    (h1 : w ≤ 1) : form a b c (ellipsoidPoint a b c g w) = (w ^ ((1 : ℝ) / 3)) ^ 2 ∧
      form a b c (ellipsoidPoint a b c g w) ≤ 1 := by
  have key : form a b c (ellipsoidPoint a b c g w) = (w ^ ((1 : ℝ) / 3)) ^ 2 := by
    unfold ellipsoidPoint form
    have inv : ∀ x : ℝ, 0 < x → (Real.sqrt (1 / x ^ 2))⁻¹ = x := by
      intro x hx
      rw [Real.sqrt_div zero_le_one, Real.sqrt_one, Real.sqrt_sq hx.le, one_div, inv_inv]
    simp only [inv a ha, inv b hb, inv c hc]
    have hpos : 0 < g.1 ^ 2 + g.2.1 ^ 2 + g.2.2 ^ 2 := by
      rcases g with ⟨x, y, z⟩
      by_contra hneg
      apply hg
      have hx := sq_nonneg x
      have hy := sq_nonneg y
      have hz := sq_nonneg z
      have h3 : x ^ 2 + y ^ 2 + z ^ 2 ≤ 0 := not_lt.mp hneg
      have ex : x = 0 := by nlinarith
      have ey : y = 0 := by nlinarith
      have ez : z = 0 := by nlinarith
      rw [ex, ey, ez]; rfl
    have hsq := Real.sq_sqrt hpos.le
    have hnz : Real.sqrt (g.1 ^ 2 + g.2.1 ^ 2 + g.2.2 ^ 2) ≠ 0 := (Real.sqrt_pos.mpr hpos).ne'
    set N := Real.sqrt (g.1 ^ 2 + g.2.1 ^ 2 + g.2.2 ^ 2)
    set R := w ^ ((1 : ℝ) / 3)
    have e1 : a * (R * g.1 / N) / a = R * g.1 / N := by field_simp
    have e2 : b * (R * g.2.1 / N) / b = R * g.2.1 / N := by field_simp
    have e3 : c * (R * g.2.2 / N) / c = R * g.2.2 / N := by field_simp
    rw [e1, e2, e3]
    have : (R * g.1 / N) ^ 2 + (R * g.2.1 / N) ^ 2 + (R * g.2.2 / N) ^ 2 =
        R ^ 2 * (g.1 ^ 2 + g.2.1 ^ 2 + g.2.2 ^ 2) / N ^ 2 := by ring
    rw [this, ← hsq, mul_div_assoc, div_self (pow_ne_zero 2 hnz), mul_one]
  refine ⟨key, ?_⟩
  rw [key]
  have h3 : w ^ ((1 : ℝ) / 3) ≤ 1 := Real.rpow_le_one h0 h1 (by norm_num)
  have h4 : 0 ≤ w ^ ((1 : ℝ) / 3) := Real.rpow_nonneg h0 _
  nlinarith

example : form 2 1 1 (ellipsoidPoint 2 1 1 (1, 2, 3) (1 / 2)) ≤ 1 :=
  (C93_in_ellipsoid 2 1 1 (by norm_num) (by norm_num) (by norm_num) (1, 2, 3) (by simp) (1 / 2) (by norm_num)
    (by norm_num)).2

/-! ## C66 -/

theorem mapM_ok {α β ε : Type} (f : α → Except ε β) (g : α → β) : ∀ (l : List α), (∀ x ∈ l, f x = .ok (g x)) →
    l.mapM f = .ok (l.map g) := by
  intro l
  induction l with
  | nil => intro _; rfl
  | cons x l ih =>
    intro h
    rw [List.mapM_cons, h x List.mem_cons_self, ih fun y hy => h y (List.mem_cons_of_mem _ hy)]
    rfl

/-- The height of a point, between -1 and 1. -/
theorem height_bound {samples i : Nat} (hs : 2 ≤ samples) (hi : i < samples) :
    -1 ≤ 1 - (i : ℝ) / ((samples : ℝ) - 1) * 2 ∧ 1 - (i : ℝ) / ((samples : ℝ) - 1) * 2 ≤ 1 := by
  have h1 : (2 : ℝ) ≤ samples := by exact_mod_cast hs
  have h2 : (i : ℝ) + 1 ≤ samples := by exact_mod_cast hi
  have hpos : 0 < (samples : ℝ) - 1 := by linarith
  have h3 : (i : ℝ) / ((samples : ℝ) - 1) ≤ 1 := by rw [div_le_one hpos]; linarith
  have h4 : 0 ≤ (i : ℝ) / ((samples : ℝ) - 1) := by positivity
  constructor <;> linarith

/-- C66. For any number of samples other than one, as many points are returned, all on the surface of the
ellipsoid. -/
theorem C66_on_ellipsoid_partial (a b c : ℝ) (ha : a ≠ 0) (hb : b ≠ 0) (hc : c ≠ 0) (samples : Nat) (hs : samples ≠ 1) :
    ∃ pts, fibonacciEllipsoid a b c samples = .ok pts ∧ pts.length = samples ∧ ∀ p ∈ pts, form a b c p = 1 := by
  have hpt : ∀ i ∈ List.range samples, fibPoint a b c samples i = .ok
      (Real.cos (golden * i) * Real.sqrt (1 - (1 - (i : ℝ) / ((samples : ℝ) - 1) * 2) * (1 - (i : ℝ) / ((samples : ℝ) - 1) * 2)) * a,
        (1 - (i : ℝ) / ((samples : ℝ) - 1) * 2) * b,
        Real.sin (golden * i) * Real.sqrt (1 - (1 - (i : ℝ) / ((samples : ℝ) - 1) * 2) * (1 - (i : ℝ) / ((samples : ℝ) - 1) * 2)) * c) := by
    intro i _
    unfold fibPoint
    rw [if_neg hs]
  refine ⟨_, mapM_ok _ _ _ hpt, by simp, ?_⟩
  intro p hp
  obtain ⟨i, hi, rfl⟩ := List.mem_map.mp hp
  have hi := List.mem_range.mp hi
  obtain ⟨h1, h2⟩ := height_bound (by omega) hi
  set y := 1 - (i : ℝ) / ((samples : ℝ) - 1) * 2
  have hnn : 0 ≤ 1 - y * y := by nlinarith
  have hsq := Real.mul_self_sqrt hnn
  have ht := Real.sin_sq_add_cos_sq (golden * i)
  unfold form
  simp only
  rw [mul_div_assoc, mul_div_assoc, mul_div_assoc, div_self ha, div_self hb, div_self hc, mul_one, mul_one, mul_one]
  set r := Real.sqrt (1 - y * y)
  have : (Real.cos (golden * i) * r) ^ 2 + y ^ 2 + (Real.sin (golden * i) * r) ^ 2 =
      (Real.sin (golden * i) ^ 2 + Real.cos (golden * i) ^ 2) * (r * r) + y ^ 2 := by ring
  rw [this, ht, hsq]
  ring

/-- The sphere is the ellipsoid with unit axes. -/
theorem fibSphere_eq (samples i : Nat) : fibSphere samples i = fibPoint 1 1 1 samples i := by
  unfold fibSphere fibPoint
  split
  · rfl
  · simp

/-- C66 for the sphere. -/
theorem C66_on_sphere_partial (samples : Nat) (hs : samples ≠ 1) :
    ∃ pts, fibonacciSphere samples = .ok pts ∧ pts.length = samples ∧ ∀ p ∈ pts, p.1 ^ 2 + p.2.1 ^ 2 + p.2.2 ^ 2 = 1 := by
  obtain ⟨pts, h1, h2, h3⟩ := C66_on_ellipsoid_partial 1 1 1 one_ne_zero one_ne_zero one_ne_zero samples hs
  refine ⟨pts, ?_, h2, ?_⟩
  · unfold fibonacciSphere
    have : fibSphere samples = fibPoint 1 1 1 samples := funext (fibSphere_eq samples)
    rw [this]
    exact h1
  · intro p hp
    have := h3 p hp
    unfold form at this
    simpa using this

/-- C66 is false for one sample, the default of both functions: division by zero. -/
theorem C66_one_sample_refuted (a b c : ℝ) :
    fibonacciEllipsoid a b c 1 = .error .zeroDivision ∧ fibonacciSphere 1 = .error .zeroDivision := ⟨rfl, rfl⟩

/-! ## C94 -/

/-- C94. The points are spread evenly: their heights decrease from the north to the south pole in equal steps,
so that no two points coincide. -/
theorem C94_evenly_spread (samples : Nat) (hs : 2 ≤ samples) :
    ∃ pts, fibonacciSphere samples = .ok pts ∧ pts.length = samples ∧ pts.Nodup ∧
      ∀ i (h : i < pts.length), (pts[i]).2.1 = 1 - 2 * (i : ℝ) / ((samples : ℝ) - 1) := by
  have hpt : ∀ i ∈ List.range samples, fibSphere samples i = .ok
      (Real.cos (golden * i) * Real.sqrt (1 - (1 - (i : ℝ) / ((samples : ℝ) - 1) * 2) * (1 - (i : ℝ) / ((samples : ℝ) - 1) * 2)),
        1 - (i : ℝ) / ((samples : ℝ) - 1) * 2,
        Real.sin (golden * i) * Real.sqrt (1 - (1 - (i : ℝ) / ((samples : ℝ) - 1) * 2) * (1 - (i : ℝ) / ((samples : ℝ) - 1) * 2))) := by
    intro i _
    unfold fibSphere
    rw [if_neg (by omega)]
  refine ⟨_, mapM_ok _ _ _ hpt, by simp, ?_, ?_⟩
  · have hpos : 0 < (samples : ℝ) - 1 := by
      have : (2 : ℝ) ≤ samples := by exact_mod_cast hs
      linarith
    apply List.Nodup.map_on _ List.nodup_range
    intro i _ j _ h
    have h2 : 1 - (i : ℝ) / ((samples : ℝ) - 1) * 2 = 1 - (j : ℝ) / ((samples : ℝ) - 1) * 2 :=
      congrArg (fun q : ℝ × ℝ × ℝ => q.2.1) h
    have h3 : (i : ℝ) / ((samples : ℝ) - 1) = (j : ℝ) / ((samples : ℝ) - 1) := by linarith
    rw [div_left_inj' hpos.ne'] at h3
    exact_mod_cast h3
  · intro i h
    simp only [List.getElem_map, List.getElem_range]
    ring

/-- Multiples of the golden angle by different numbers differ modulo full turns. -/
theorem golden_turns {i j : Nat} (h : ((golden * i : ℝ) : Real.Angle) = ((golden * j : ℝ) : Real.Angle)) : i = j := by
  rw [Real.Angle.angle_eq_iff_two_pi_dvd_sub] at h
  obtain ⟨k, hk⟩ := h
  by_contra hij
  have hne : ((i : ℝ) - j) ≠ 0 := by
    intro h0
    exact hij (by exact_mod_cast sub_eq_zero.1 h0)
  have h5 : Real.sqrt 5 = 3 - 2 * k / ((i : ℝ) - j) := by
    have hpi := Real.pi_ne_zero
    unfold golden at hk
    have hk' : (3 - Real.sqrt 5) * ((i : ℝ) - j) = 2 * k := by
      have : Real.pi * ((3 - Real.sqrt 5) * ((i : ℝ) - j)) = Real.pi * (2 * k) := by linarith
      exact mul_left_cancel₀ hpi this
    field_simp
    linarith
  have hirr : Irrational (Real.sqrt (5 : ℕ)) := Nat.Prime.irrational_sqrt Nat.prime_five
  apply hirr
  refine ⟨3 - 2 * k / ((i : ℚ) - j), ?_⟩
  push_cast
  rw [h5]

/-- C94. The points are spread evenly around the axis, too: no two points other than the poles have the same
longitude, however many points there are. -/
theorem C94_longitudes (samples : Nat) (hs : 2 ≤ samples) (pts : List (ℝ × ℝ × ℝ))
    (hp : fibonacciSphere samples = .ok pts) (i j : Nat) (hi : i < pts.length) (hj : j < pts.length)
    (hij : i ≠ j) (hin : 0 < i ∧ i + 1 < samples) (hjn : 0 < j ∧ j + 1 < samples) (t : ℝ) (ht : 0 < t) :
    ¬ ((pts[i]).1 = t * (pts[j]).1 ∧ (pts[i]).2.2 = t * (pts[j]).2.2) := by
  have hpt : ∀ i ∈ List.range samples, fibSphere samples i = .ok
      (Real.cos (golden * i) * Real.sqrt (1 - (1 - (i : ℝ) / ((samples : ℝ) - 1) * 2) * (1 - (i : ℝ) / ((samples : ℝ) - 1) * 2)),
        1 - (i : ℝ) / ((samples : ℝ) - 1) * 2,
        Real.sin (golden * i) * Real.sqrt (1 - (1 - (i : ℝ) / ((samples : ℝ) - 1) * 2) * (1 - (i : ℝ) / ((samples : ℝ) - 1) * 2))) := by
    intro i _
    unfold fibSphere
    rw [if_neg (by omega)]
  have hok := mapM_ok _ _ _ hpt
  unfold fibonacciSphere at hp
  rw [hok] at hp
  cases hp
  simp only [List.getElem_map, List.getElem_range]
  have hpos : 0 < (samples : ℝ) - 1 := by
    have : (2 : ℝ) ≤ samples := by exact_mod_cast hs
    linarith
  have hrad : ∀ n : Nat, 0 < n → n + 1 < samples →
      0 < Real.sqrt (1 - (1 - (n : ℝ) / ((samples : ℝ) - 1) * 2) * (1 - (n : ℝ) / ((samples : ℝ) - 1) * 2)) := by
    intro n h0 h1
    apply Real.sqrt_pos.2
    have h0' : 0 < (n : ℝ) / ((samples : ℝ) - 1) := div_pos (by exact_mod_cast h0) hpos
    have h1' : (n : ℝ) / ((samples : ℝ) - 1) < 1 := by
      rw [div_lt_one hpos]
      have : ((n + 1 : ℕ) : ℝ) < samples := by exact_mod_cast h1
      push_cast at this
      linarith
    nlinarith
  have ri := hrad i hin.1 hin.2
  have rj := hrad j hjn.1 hjn.2
  revert ri rj
  generalize Real.sqrt (1 - (1 - (i : ℝ) / ((samples : ℝ) - 1) * 2) * (1 - (i : ℝ) / ((samples : ℝ) - 1) * 2)) = Ri
  generalize Real.sqrt (1 - (1 - (j : ℝ) / ((samples : ℝ) - 1) * 2) * (1 - (j : ℝ) / ((samples : ℝ) - 1) * 2)) = Rj
  intro ri rj ⟨hx, hz⟩
  have hsq : Ri ^ 2 = (t * Rj) ^ 2 := by
    have e1 := Real.cos_sq_add_sin_sq (golden * i)
    have e2 := Real.cos_sq_add_sin_sq (golden * j)
    calc Ri ^ 2 = (Real.cos (golden * i) * Ri) ^ 2 + (Real.sin (golden * i) * Ri) ^ 2 := by
          rw [mul_pow, mul_pow, ← add_mul, e1, one_mul]
      _ = (t * Rj) ^ 2 * (Real.cos (golden * j) ^ 2 + Real.sin (golden * j) ^ 2) := by rw [hx, hz]; ring
      _ = (t * Rj) ^ 2 := by rw [e2, mul_one]
  have hR : Ri = t * Rj := by
    have := abs_eq_abs.2 (sq_eq_sq_iff_eq_or_eq_neg.1 hsq)
    rwa [abs_of_pos ri, abs_of_pos (mul_pos ht rj)] at this
  have hc : Real.cos (golden * i) = Real.cos (golden * j) := by
    apply mul_right_cancel₀ ri.ne'
    rw [hx, hR]; ring
  have hsn : Real.sin (golden * i) = Real.sin (golden * j) := by
    apply mul_right_cancel₀ ri.ne'
    rw [hz, hR]; ring
  exact hij (golden_turns (Real.Angle.cos_sin_inj hc hsn))

/-- Points 1 and 2 of five are such points. -/
example : ∃ pts, fibonacciSphere 5 = .ok pts ∧ 1 < pts.length ∧ 2 < pts.length ∧ 2 + 1 < 5 := by
  obtain ⟨pts, h, hl, -⟩ := C94_evenly_spread 5 (by norm_num)
  exact ⟨pts, h, by omega, by omega, by norm_num⟩

end Verif.Mock
