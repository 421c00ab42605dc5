import Verif.Mock.Model
import Mathlib.MeasureTheory.Integral.IntervalIntegral.FundThmCalculus
import Mathlib.Analysis.SpecialFunctions.Pow.Continuity
import Mathlib.Tactic.FieldSimp
import Mathlib.Tactic.Linarith
import Mathlib.Tactic.Positivity
import Mathlib.Tactic.Ring

/-!
# Lemmas on mock halos
-/

namespace Verif.Mock

/-! ## Rounding -/

theorem pyRound_close (x : ℝ) : |(pyRound x : ℝ) - x| ≤ 1 / 2 := by
  have h1 := Int.floor_le x
  have h2 := Int.lt_floor_add_one x
  unfold pyRound
  split
  · rw [abs_le]; constructor <;> linarith
  · rename_i h
    split
    · push_cast; rw [abs_le]; constructor <;> linarith
    · rename_i h'
      split
      · rw [abs_le]; constructor <;> linarith
      · push_cast; rw [abs_le]; constructor <;> linarith

theorem pyRound_int (n : ℤ) : pyRound (n : ℝ) = n := by
  unfold pyRound
  simp

theorem pyRound_nonneg {x : ℝ} (h : 0 ≤ x) : 0 ≤ pyRound x := by
  have := Int.floor_nonneg.mpr h
  unfold pyRound
  split
  · exact this
  · split
    · omega
    · split <;> omega

/-! ## Integrands -/

/-- Positive parameters. -/
def Prof.Pos : Prof → Prop
  | .einasto alpha rs => 0 < alpha ∧ 0 < rs
  | .abg alpha _ _ rs => 0 < alpha ∧ 0 < rs
  | .hernquist rs => 0 < rs
  | .nfw rs => 0 < rs

theorem integrand_eq (rho : ℝ) (p : Prof) (r : ℝ) : integrand rho p r = rho * integrand0 p r := by
  cases p <;> simp only [integrand, integrand0, Stats.einasto, Stats.alphaBetaGamma, Stats.hernquist, Stats.nfw] <;> ring

theorem integrand0_pos {p : Prof} (hp : p.Pos) {r : ℝ} (hr : 0 < r) : 0 < integrand0 p r := by
  have hpi := Real.pi_pos
  cases p with
  | einasto alpha rs => unfold integrand0; positivity
  | abg alpha beta gamma rs =>
    obtain ⟨h1, h2⟩ := hp
    have : 0 < r / rs := div_pos hr h2
    unfold integrand0
    have h3 : 0 < (r / rs) ^ gamma := Real.rpow_pos_of_pos this _
    have h4 : 0 < (1 + (r / rs) ^ alpha) ^ ((beta - gamma) / alpha) :=
      Real.rpow_pos_of_pos (by have := Real.rpow_pos_of_pos this alpha; linarith) _
    positivity
  | hernquist rs =>
    have h2 : 0 < rs := hp
    unfold integrand0; positivity
  | nfw rs =>
    have h2 : 0 < rs := hp
    unfold integrand0; positivity

theorem integrand0_continuousOn {p : Prof} (hp : p.Pos) : ContinuousOn (integrand0 p) (Set.Ioi 0) := by
  cases p with
  | einasto alpha rs =>
    obtain ⟨h1, h2⟩ := hp
    have hq : ContinuousOn (fun r : ℝ => (r / rs) ^ alpha) (Set.Ioi 0) := by
      apply ContinuousOn.rpow_const
      · fun_prop
      · intro x _; right; exact h1.le
    unfold integrand0
    fun_prop
  | abg alpha beta gamma rs =>
    obtain ⟨h1, h2⟩ := hp
    have hpos : ∀ x ∈ Set.Ioi (0 : ℝ), 0 < x / rs := fun x hx => div_pos hx h2
    have hq : ∀ e : ℝ, ContinuousOn (fun r : ℝ => (r / rs) ^ e) (Set.Ioi 0) := by
      intro e
      apply ContinuousOn.rpow_const
      · fun_prop
      · intro x hx; left; exact (hpos x hx).ne'
    have hone : ∀ x ∈ Set.Ioi (0 : ℝ), 0 < 1 + (x / rs) ^ alpha := by
      intro x hx
      have := Real.rpow_pos_of_pos (hpos x hx) alpha
      linarith
    have hq2 : ContinuousOn (fun r : ℝ => (1 + (r / rs) ^ alpha) ^ ((beta - gamma) / alpha)) (Set.Ioi 0) := by
      apply ContinuousOn.rpow_const
      · exact continuousOn_const.add (hq alpha)
      · intro x hx; left; exact (hone x hx).ne'
    unfold integrand0
    apply ContinuousOn.div
    · fun_prop
    · exact (hq gamma).mul hq2
    · intro x hx
      exact (mul_pos (Real.rpow_pos_of_pos (hpos x hx) _) (Real.rpow_pos_of_pos (hone x hx) _)).ne'
  | hernquist rs =>
    have h2 : 0 < rs := hp
    unfold integrand0
    apply ContinuousOn.div
    · fun_prop
    · fun_prop
    · intro x hx
      have hx : 0 < x := hx
      positivity
  | nfw rs =>
    have h2 : 0 < rs := hp
    unfold integrand0
    apply ContinuousOn.div
    · fun_prop
    · fun_prop
    · intro x hx
      have hx : 0 < x := hx
      positivity

theorem start_pos : 0 < start := by unfold start; positivity

theorem integrable0 {p : Prof} (hp : p.Pos) {lo hi : ℝ} (h1 : 0 < lo) (h2 : 0 < hi) :
    IntervalIntegrable (integrand0 p) MeasureTheory.volume lo hi := by
  apply ContinuousOn.intervalIntegrable
  apply (integrand0_continuousOn hp).mono
  intro x hx
  rw [Set.mem_uIcc] at hx
  rcases hx with hx | hx
  · exact lt_of_lt_of_le h1 hx.1
  · exact lt_of_lt_of_le h2 hx.1

theorem quad_integrand (rho : ℝ) (p : Prof) (lo hi : ℝ) : quad (integrand rho p) lo hi = rho * quad (integrand0 p) lo hi := by
  unfold quad
  simp only [integrand_eq]
  exact intervalIntegral.integral_const_mul rho (integrand0 p)

theorem quad0_pos {p : Prof} (hp : p.Pos) {lo hi : ℝ} (h1 : 0 < lo) (h2 : lo < hi) : 0 < quad (integrand0 p) lo hi := by
  apply intervalIntegral.intervalIntegral_pos_of_pos_on
  · exact integrable0 hp h1 (h1.trans h2)
  · intro x hx
    exact integrand0_pos hp (h1.trans hx.1)
  · exact h2

theorem quad0_add {p : Prof} (hp : p.Pos) {x y z : ℝ} (hx : 0 < x) (hy : 0 < y) (hz : 0 < z) :
    quad (integrand0 p) x y + quad (integrand0 p) y z = quad (integrand0 p) x z :=
  intervalIntegral.integral_add_adjacent_intervals (integrable0 hp hx hy) (integrable0 hp hy hz)

theorem quad0_self (p : Prof) (x : ℝ) : quad (integrand0 p) x x = 0 := intervalIntegral.integral_same

/-- The masses of consecutive shells add up. -/
theorem shells_sum {p : Prof} (hp : p.Pos) (rho : ℝ) (x : ℝ) (hx : 0 < x) (a : List ℝ) (ha : ∀ y ∈ a, 0 < y) :
    (List.zipWith (quad (integrand rho p)) (x :: a) a).sum = quad (integrand rho p) x (a.getLastD x) := by
  induction a generalizing x with
  | nil => simp [quad]
  | cons y a ih =>
    have hy := ha y List.mem_cons_self
    rw [List.zipWith_cons_cons, List.sum_cons, ih y hy fun z hz => ha z (List.mem_cons_of_mem _ hz)]
    have hz : 0 < a.getLastD y := by
      rw [List.getLastD_eq_getLast?]
      cases h : a.getLast? with
      | none => simpa using hy
      | some z => exact ha z (List.mem_cons_of_mem _ (List.mem_of_getLast? h))
    have hlast : (y :: a).getLastD x = a.getLastD y := by
      cases a with
      | nil => rfl
      | cons z a => simp [List.getLast?_eq_some_getLast]
    rw [hlast]
    simp only [quad_integrand]
    rw [← mul_add, quad0_add hp hx hy hz]

/-! ## Coarsening -/

variable {α β : Type}

theorem everySecond_sublist (l : List α) : (everySecond l).Sublist l := by
  induction l using everySecond.induct with
  | case1 => exact .slnil
  | case2 x => exact .refl _
  | case3 x y l ih => exact .cons_cons x (ih.cons y)

theorem everySecond_length (l : List α) : (everySecond l).length = (l.length + 1) / 2 := by
  induction l using everySecond.induct with
  | case1 => simp [everySecond]
  | case2 x => simp [everySecond]
  | case3 x y l ih => simp only [everySecond, List.length_cons, ih]; omega

theorem everySecond_map (f : α → β) (l : List α) : everySecond (l.map f) = (everySecond l).map f := by
  induction l using everySecond.induct with
  | case1 => rfl
  | case2 x => rfl
  | case3 x y l ih => simp [everySecond, ih]

theorem everySecond_head? (l : List α) : (everySecond l).head? = l.head? := by
  match l with
  | [] => rfl
  | [x] => rfl
  | x :: y :: l => rfl

/-- Of an odd number the last is kept. -/
theorem everySecond_last_odd (l : List α) (h : l.length % 2 = 1) : (everySecond l).getLast? = l.getLast? := by
  induction l using everySecond.induct with
  | case1 => rfl
  | case2 x => rfl
  | case3 x y l ih =>
    have hl : l.length % 2 = 1 := by simp only [List.length_cons] at h; omega
    have hne : l ≠ [] := by rintro rfl; simp at hl
    have hne' : everySecond l ≠ [] := by
      intro h0
      have := everySecond_length l
      rw [h0] at this
      simp at this
      omega
    rw [everySecond, List.getLast?_cons_of_ne_nil hne', ih hl, List.getLast?_cons_cons, List.getLast?_cons_of_ne_nil hne]

/-- Of an even number the last is dropped. -/
theorem everySecond_even (l : List α) (h : l.length % 2 = 0) : (everySecond l).Sublist l.dropLast := by
  induction l using everySecond.induct with
  | case1 => exact .slnil
  | case2 x => simp at h
  | case3 x y l ih =>
    have hl : l.length % 2 = 0 := by simp only [List.length_cons] at h; omega
    cases l with
    | nil => simp [everySecond]
    | cons z l =>
      have : (x :: y :: z :: l).dropLast = x :: y :: (z :: l).dropLast := rfl
      rw [everySecond, this]
      exact .cons_cons x ((ih hl).cons y)

theorem coarsen_sublist (l : List α) : (coarsen l).Sublist l := by
  unfold coarsen
  split
  · exact everySecond_sublist l
  · rename_i h
    have h0 : l.length % 2 = 0 := by omega
    rcases List.eq_nil_or_concat l with rfl | ⟨m, x, rfl⟩
    · simp [everySecond]
    · have := everySecond_even (m ++ [x]) (by simpa using h0)
      rw [List.dropLast_concat] at this
      rw [List.concat_eq_append, List.getLast?_append]
      simpa using this

theorem coarsen_last (l : List α) : (coarsen l).getLast? = l.getLast? := by
  unfold coarsen
  split
  · rename_i h; exact everySecond_last_odd l h
  · rcases List.eq_nil_or_concat l with rfl | ⟨m, x, rfl⟩
    · rfl
    · simp

theorem coarsen_length (l : List α) (h : l ≠ []) : (coarsen l).length = l.length / 2 + 1 := by
  unfold coarsen
  split
  · rw [everySecond_length]; omega
  · rcases List.eq_nil_or_concat l with rfl | ⟨m, x, rfl⟩
    · exact absurd rfl h
    · rw [List.length_append, everySecond_length]
      simp
      simp at *
      omega

theorem coarsen_head (l : List α) : (coarsen l).head? = l.head? := by
  unfold coarsen
  split
  · exact everySecond_head? l
  · cases l with
    | nil => rfl
    | cons x l =>
      have := everySecond_head? (x :: l)
      rw [List.head?_append, this]
      rfl

theorem coarsen_map (f : α → β) (l : List α) : coarsen (l.map f) = (coarsen l).map f := by
  unfold coarsen
  rw [List.length_map, everySecond_map, List.getLast?_map]
  split
  · rfl
  · cases l.getLast? <;> simp

end Verif.Mock
