import Verif.Stats.HistProps
import Verif.Geometry.Vec
import Mathlib.Analysis.Real.Sqrt

/-!
# Error bars (C85)
-/

namespace Verif.Stats

theorem sort_replicate (n : Nat) (x : ℝ) :
    ((List.replicate n x).mergeSort fun a b => decide (a ≤ b)) = List.replicate n x :=
  List.eq_replicate_iff.2 ⟨by rw [(List.mergeSort_perm _ _).length_eq, List.length_replicate],
    fun _ hb => List.eq_of_mem_replicate ((List.mergeSort_perm _ _).subset hb)⟩

/-- C85 is false for the method used in all plots: a sample of `n` equal values `x`, which has no spread
at all, gets error bars `x / √n`; moreover these change when a constant is added to all values. -/
theorem C85_quantile_errors_refuted (n : Nat) (hn : 0 < n) (x p : ℝ) (hp : 0 ≤ p) (hp1 : p < 1) :
    median (List.replicate n x) = some x ∧
    quantileError (List.replicate n x) p = some (x / Real.sqrt n) := by
  have hne : List.replicate n x ≠ [] := by
    intro h; rw [List.replicate_eq_nil_iff] at h; omega
  constructor
  · unfold median
    rw [if_neg hne, sort_replicate]
    simp only [List.length_replicate]
    by_cases hodd : n % 2 = 1
    · rw [if_pos hodd, List.getElem?_replicate, if_pos (by omega)]
    · rw [if_neg hodd, List.getElem?_replicate, List.getElem?_replicate, if_pos (by omega),
        if_pos (by omega)]
      simp
  · unfold quantileError quantile
    rw [if_neg hne, sort_replicate]
    simp only [List.length_replicate]
    have hlo : ⌊((n : ℝ) - 1) * p⌋₊ < n := by
      have h1 : (1 : ℝ) ≤ n := by exact_mod_cast hn
      rw [Nat.floor_lt (mul_nonneg (by linarith) hp)]
      nlinarith
    rw [List.getElem?_replicate, if_pos hlo]
    simp only [Option.bind_some]
    split
    · rename_i h
      rw [List.getElem?_replicate, if_pos h]
      simp
    · rfl

/-- Four equal values 1: error bars of half the value. -/
example : quantileError [1, 1, 1, 1] (1 / 4) = some (1 / 2) := by
  have h := (C85_quantile_errors_refuted 4 (by norm_num) 1 (1 / 4) (by norm_num) (by norm_num)).2
  have e : Real.sqrt ((4 : ℕ) : ℝ) = 2 := by
    rw [show ((4 : ℕ) : ℝ) = 2 ^ 2 by norm_num]; exact Real.sqrt_sq (by norm_num)
  rw [e] at h
  exact h

/-- Part of C85 which holds: the standard error of the mean exists for two or more values, does not
depend on their order, does not change when a constant is added to all values, scales with the values,
and is zero exactly if all values are equal. -/
theorem C85_sem_partial (z : List ℝ) (h2 : 2 ≤ z.length) :
    ∃ e, semError z = some e ∧ 0 ≤ e ∧
      (∀ z', z.Perm z' → semError z' = some e) ∧
      (∀ t, semError (z.map (t + ·)) = some e) ∧
      (∀ k, semError (z.map (k * ·)) = some (|k| * e)) ∧
      (e = 0 ↔ ∀ x ∈ z, ∀ y ∈ z, x = y) := by
  have hn : (0 : ℝ) < z.length := by exact_mod_cast (by omega : 0 < z.length)
  have hn1 : (0 : ℝ) < (z.length : ℝ) - 1 := by
    have : (2 : ℝ) ≤ z.length := by exact_mod_cast h2
    linarith
  refine ⟨_, if_neg (by omega), by positivity, ?_, ?_, ?_, ?_⟩
  · intro z' hp
    unfold semError
    rw [if_neg (by rw [← hp.length_eq]; omega), ← hp.sum_eq, ← hp.length_eq]
    simp only
    rw [← (hp.map _).sum_eq]
  · intro t
    unfold semError
    have hs : (z.map (t + ·)).sum = z.length * t + z.sum := by
      clear h2 hn hn1
      induction z with
      | nil => simp
      | cons a z ih => simp [ih]; ring
    rw [if_neg (by rw [List.length_map]; omega), List.length_map, hs]
    simp only [List.map_map]
    have e : (z.length * t + z.sum) / z.length = t + z.sum / z.length := by field_simp
    rw [e]
    congr 5
    apply List.map_congr_left
    intro x _
    simp only [Function.comp]
    ring
  · intro k
    unfold semError
    have hs : (z.map (k * ·)).sum = k * z.sum := by
      have := sum_map_mul_left' z id k
      simpa using this
    rw [if_neg (by rw [List.length_map]; omega), List.length_map, hs]
    simp only [List.map_map]
    have e : (z.map ((fun x => (x - k * z.sum / z.length) ^ 2) ∘ (k * ·))).sum =
        k ^ 2 * (z.map fun x => (x - z.sum / z.length) ^ 2).sum := by
      rw [← sum_map_mul_left']
      congr 1
      apply List.map_congr_left
      intro x _
      simp only [Function.comp]
      ring
    rw [e, mul_div_assoc, Real.sqrt_mul (sq_nonneg k), Real.sqrt_sq_eq_abs, mul_div_assoc]
  · have hnn : ∀ y ∈ z.map (fun x => (x - z.sum / z.length) ^ 2), 0 ≤ y := by
      intro y hy
      obtain ⟨x, -, rfl⟩ := List.mem_map.1 hy
      exact sq_nonneg _
    have hsq : 0 < Real.sqrt z.length := Real.sqrt_pos.2 hn
    rw [div_eq_zero_iff, or_iff_left hsq.ne', Real.sqrt_eq_zero (div_nonneg (List.sum_nonneg hnn) hn1.le),
      div_eq_zero_iff, or_iff_left hn1.ne']
    constructor
    · intro h0
      have hall : ∀ x ∈ z, x = z.sum / z.length := by
        intro x hx
        have hm := List.mem_map_of_mem (f := fun x => (x - z.sum / z.length) ^ 2) hx
        have h1 := List.single_le_sum hnn _ hm
        rw [h0] at h1
        have h3 : x - z.sum / z.length = 0 := by nlinarith [sq_nonneg (x - z.sum / z.length)]
        linarith
      intro x hx y hy
      rw [hall x hx, hall y hy]
    · intro hall
      obtain ⟨a, ha⟩ := List.exists_mem_of_length_pos (show 0 < z.length by omega)
      have hz : z = List.replicate z.length a := List.eq_replicate_iff.2 ⟨rfl, fun b hb => hall b hb a ha⟩
      have hs : z.sum = z.length * a := by
        conv_lhs => rw [hz]
        simp
      refine List.sum_eq_zero ?_
      intro y hy
      obtain ⟨x, hx, rfl⟩ := List.mem_map.1 hy
      rw [hs, hall x hx a ha, mul_div_cancel_left₀ _ hn.ne', sub_self]
      norm_num

example : (2 : Nat) ≤ ([1, 3] : List ℝ).length := by simp

end Verif.Stats
