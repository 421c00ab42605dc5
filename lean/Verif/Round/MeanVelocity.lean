import Verif.Round.TotalMass
import Verif.Periodic.Model

/-!
# Mean velocities with a total mass of single precision (C157)

The mean velocity of an object, around which its velocity dispersion tensor is taken, is computed by `CythonHelpers.calcCoM`
(helper_class.pyx:85-107; called in shape_profs_algos.pyx:827 and 943), whose `mass_total` is a variable of single precision.
-/

namespace Verif.Round

open Verif (Vec Particle)

/-! ## Model -/

/-- `CythonHelpers.calcCoM`, helper_class.pyx:85-107, with rounding: the total mass is accumulated in single precision `S`, all
else is computed in double precision `R`.  (`pos` of a particle is here the vector to be averaged.) -/
noncomputable def cyMean (R S : Rounding) (ps : List (Particle ℝ)) : Vec ℝ :=
  let massTotal := totalSingle R S (ps.map fun p => p.mass)
  ps.foldl (fun com p i => R.add (com i) (R.div (R.mul p.mass (p.pos i)) massTotal)) 0

/-! ## Proof: error bound -/

theorem cyMean_apply (R S : Rounding) (ps : List (Particle ℝ)) (i : Fin 3) :
    cyMean R S ps i =
      (ps.map fun p => R.div (R.mul p.mass (p.pos i)) (totalSingle R S (ps.map fun p => p.mass))).foldl R.add 0 := by
  unfold cyMean
  generalize totalSingle R S (ps.map fun p => p.mass) = mt
  have gen : ∀ (ps : List (Particle ℝ)) (a : Vec ℝ),
      ps.foldl (fun com p i => R.add (com i) (R.div (R.mul p.mass (p.pos i)) mt)) a i =
        (ps.map fun p => R.div (R.mul p.mass (p.pos i)) mt).foldl R.add (a i) := by
    intro ps
    induction ps with
    | nil => intro a; rfl
    | cons p ps ih => intro a; rw [List.foldl_cons, ih]; rfl
  exact gen ps 0

theorem totalSingle_rel (R S : Rounding) (hRS : R.u ≤ S.u) (ms : List ℝ) (hm : ∀ m ∈ ms, 0 ≤ m) :
    Rel S (2 * ms.length) (totalSingle R S ms) ms.sum := by
  have gen : ∀ (ms : List ℝ) (k : Nat) (a b : ℝ), 0 ≤ b → Rel S k a b → (∀ m ∈ ms, 0 ≤ m) →
      Rel S (k + 2 * ms.length) (ms.foldl (fun a m => S.rnd (R.add a m)) a) (b + ms.sum) := by
    intro ms
    induction ms with
    | nil => intro k a b _ h _; simpa using h
    | cons m ms ih =>
      intro k a b hb h hm
      have hm0 := hm m (List.mem_cons_self ..)
      have h1 : Rel S k (a + m) (b + m) := by
        have := rel_sum_of_nonneg (R := S) (k := k) (l' := [a, m]) (l := [b, m])
          (.cons h (.cons (Rel.refl S k m) .nil)) (by
            intro x hx
            simp only [List.mem_cons, List.not_mem_nil, or_false] at hx
            rcases hx with rfl | rfl
            · exact hb
            · exact hm0)
        simpa using this
      have h2 : Rel S (k + 2) (S.rnd (R.add a m)) (b + m) := by
        have h3 : Rel S 1 (R.add a m) (a + m) := (rel_rnd R (a + m)).coarser hRS
        have h4 := (rel_rnd S (R.add a m)).trans (h3.trans h1)
        exact h4.mono (by omega)
      have := ih (k + 2) _ _ (by linarith) h2 fun x hx => hm x (List.mem_cons_of_mem _ hx)
      rw [List.foldl_cons, List.sum_cons, ← add_assoc]
      exact this.mono (by rw [List.length_cons]; omega)
  have := gen ms 0 0 0 le_rfl (Rel.refl S 0 0) hm
  simpa [totalSingle] using this

/-- C157, the part that holds: the mean velocity of `n` particles is wrong by at most `6 (n + 1)` rounding errors of single precision, relative to the mean of the
absolute values, as long as `n` is at most about 2.8 million. -/
theorem C157_mean_partial (R S : Rounding) (hRS : R.u ≤ S.u) (ps : List (Particle ℝ)) (hm : ∀ p ∈ ps, 0 ≤ p.mass)
    (hn : (3 * (ps.length + 1) : ℕ) * S.u ≤ 1 / 2) (i : Fin 3) :
    |cyMean R S ps i - (ps.map fun p => p.mass * p.pos i).sum / (ps.map fun p => p.mass).sum| ≤
      6 * (ps.length + 1) * S.u * ((ps.map fun p => p.mass * |p.pos i|).sum / (ps.map fun p => p.mass).sum) := by
  set M := (ps.map fun p => p.mass).sum with hMdef
  have hM : 0 ≤ M := List.sum_nonneg (by
    intro x hx
    obtain ⟨p, hp, rfl⟩ := List.mem_map.1 hx
    exact hm p hp)
  rw [cyMean_apply]
  have hT := totalSingle_rel R S hRS (ps.map fun p => p.mass) (by
    intro x hx
    obtain ⟨p, hp, rfl⟩ := List.mem_map.1 hx
    exact hm p hp)
  rw [List.length_map] at hT
  rw [← hMdef] at hT
  generalize totalSingle R S (ps.map fun p => p.mass) = mt at hT
  obtain ⟨l', hl', e⟩ := foldl_rel (R := R) (ps.map fun p => R.div (R.mul p.mass (p.pos i)) mt) 0
  rw [e]
  have h1 : List.Forall₂ (Rel S ps.length) l' (0 :: ps.map fun p => R.div (R.mul p.mass (p.pos i)) mt) :=
    hl'.imp fun _ _ r => by
      have := Rel.coarser hRS r
      rwa [List.length_map] at this
  have h2 : List.Forall₂ (Rel S (2 * ps.length + 2)) (0 :: ps.map fun p => R.div (R.mul p.mass (p.pos i)) mt)
      (0 :: ps.map fun p => p.mass * p.pos i / M) := by
    refine .cons (Rel.refl S _ 0) ?_
    rw [List.forall₂_map_left_iff, List.forall₂_map_right_iff]
    apply List.forall₂_same.2
    intro p _
    have a1 : Rel S 1 (R.mul p.mass (p.pos i)) (p.mass * p.pos i) := (rel_rnd R _).coarser hRS
    have a2 := a1.div hT
    have a3 : Rel S 1 (R.div (R.mul p.mass (p.pos i)) mt) (R.mul p.mass (p.pos i) / mt) := (rel_rnd R _).coarser hRS
    exact (a3.trans a2).mono (by omega)
  have h3 := (forall₂_rel_trans h1 h2).imp fun _ _ r => r.mono (show ps.length + (2 * ps.length + 2) ≤ 3 * (ps.length + 1) by omega)
  have h4 := err_sum h3
  have h5 := gamma_le S (3 * (ps.length + 1)) hn
  have s1 : (0 :: ps.map fun p => p.mass * p.pos i / M).sum = (ps.map fun p => p.mass * p.pos i).sum / M := by
    rw [List.sum_cons, zero_add]
    simp only [div_eq_mul_inv]
    rw [← List.sum_map_mul_right]
  have s2 : ((0 :: ps.map fun p => p.mass * p.pos i / M).map abs).sum = (ps.map fun p => p.mass * |p.pos i|).sum / M := by
    rw [List.map_cons, List.sum_cons, abs_zero, zero_add, List.map_map]
    simp only [div_eq_mul_inv]
    rw [← List.sum_map_mul_right]
    congr 1
    apply List.map_congr_left
    intro p hp
    simp only [Function.comp]
    rw [abs_mul, abs_mul, abs_of_nonneg (hm p hp), abs_of_nonneg (inv_nonneg.2 hM)]
  rw [s1, s2] at h4
  refine h4.trans ?_
  have hnn : 0 ≤ (ps.map fun p => p.mass * |p.pos i|).sum / M := by
    refine div_nonneg (List.sum_nonneg ?_) hM
    intro x hx
    obtain ⟨p, hp, rfl⟩ := List.mem_map.1 hx
    exact mul_nonneg (hm p hp) (abs_nonneg _)
  refine mul_le_mul_of_nonneg_right (h5.trans (le_of_eq ?_)) hnn
  push_cast
  ring

/-! ## Proof: large numbers of particles -/

theorem flPos_zpow (p : ℕ) (hp : 1 ≤ p) (e : ℤ) : flPos p ((2 : ℝ) ^ e) = 2 ^ e := by
  have hlog : Int.log 2 ((2 : ℝ) ^ e) = e := by
    have := Int.log_zpow (R := ℝ) (b := 2) (by norm_num) e
    exact_mod_cast this
  have hs : place p ((2 : ℝ) ^ e) ≤ e := by unfold place; rw [hlog]; omega
  exact le_antisymm (flPos_le_zpow hs le_rfl) (zpow_le_flPos hs le_rfl)

/-- Numbers with at most `p` binary digits are stored exactly. -/
theorem fl_digits (p : ℕ) (hp : 1 ≤ p) (k : ℕ) (hk : k ≤ 2 ^ p) (e : ℤ) : fl p (k * (2 : ℝ) ^ e) = k * (2 : ℝ) ^ e := by
  rcases Nat.eq_zero_or_pos k with rfl | hk0
  · simp [fl_zero]
  have hx : 0 < (k : ℝ) * (2 : ℝ) ^ e := by positivity
  rw [fl_pos hx]
  rcases hk.eq_or_lt with rfl | hlt
  · have : ((2 ^ p : ℕ) : ℝ) * (2 : ℝ) ^ e = 2 ^ ((p : ℤ) + e) := by
      rw [zpow_add₀ (by norm_num), zpow_natCast]
      push_cast
      ring
    rw [this]
    exact flPos_zpow p hp _
  · have hlog : Int.log 2 ((k : ℝ) * (2 : ℝ) ^ e) < (p : ℤ) + e := by
      apply (Int.lt_zpow_iff_log_lt (b := 2) (by norm_num) hx).1
      rw [show (((2 : ℕ) : ℝ)) = 2 by norm_num, zpow_add₀ (by norm_num), zpow_natCast]
      apply mul_lt_mul_of_pos_right _ (by positivity)
      exact_mod_cast hlt
    have hpl : place p ((k : ℝ) * (2 : ℝ) ^ e) ≤ e := by unfold place; omega
    obtain ⟨n, hn⟩ := int_mul_zpow_dvd hpl
    unfold flPos
    have : (k : ℝ) * (2 : ℝ) ^ e / 2 ^ place p ((k : ℝ) * (2 : ℝ) ^ e) = ((k * n : ℤ) : ℝ) := by
      rw [mul_div_assoc, hn]
      push_cast
      ring
    rw [this, nearest_int, ← this]
    field_simp

/-- 2^24 + 1 is halfway between two numbers of single precision; the even one is 2^24. -/
theorem float32_stuck : float32.rnd (2 ^ 24 + 1) = 2 ^ 24 := by
  show fl 24 (2 ^ 24 + 1) = 2 ^ 24
  have hx : (0 : ℝ) < 2 ^ 24 + 1 := by norm_num
  have hlog : Int.log 2 ((2 : ℝ) ^ 24 + 1) = 24 := by
    have a := (Int.zpow_le_iff_le_log (b := 2) (r := (2 : ℝ) ^ 24 + 1) (x := 24) (by norm_num) hx).1 (by norm_num)
    have b := (Int.lt_zpow_iff_log_lt (b := 2) (r := (2 : ℝ) ^ 24 + 1) (x := 25) (by norm_num) hx).1 (by norm_num)
    omega
  rw [fl_pos hx]
  unfold flPos place
  rw [hlog]
  norm_num
  unfold nearest
  have hfl : ⌊(16777217 / 2 : ℝ)⌋ = 8388608 := by
    rw [Int.floor_eq_iff]
    norm_num
  have hfr : Int.fract (16777217 / 2 : ℝ) = 1 / 2 := by
    unfold Int.fract
    rw [hfl]
    norm_num
  rw [hfr, hfl, if_neg (lt_irrefl _), if_neg (lt_irrefl _), if_pos (by decide)]
  norm_num

theorem total_ones (n : ℕ) : totalSingle float64 float32 (List.replicate n 1) = ((min n (2 ^ 24) : ℕ) : ℝ) := by
  unfold totalSingle
  induction n with
  | zero => simp
  | succ n ih =>
    rw [List.replicate_succ', List.foldl_append, ih]
    show float32.rnd (float64.rnd (((min n (2 ^ 24) : ℕ) : ℝ) + 1)) = _
    have h64 : float64.rnd (((min n (2 ^ 24) : ℕ) : ℝ) + 1) = ((min n (2 ^ 24) : ℕ) : ℝ) + 1 := by
      have := fl_digits 53 (by norm_num) (min n (2 ^ 24) + 1) (by have := min_le_right n (2 ^ 24); omega) 0
      rw [zpow_zero, mul_one] at this
      push_cast at this ⊢
      exact this
    rw [h64]
    by_cases hn : n < 2 ^ 24
    · rw [min_eq_left hn.le, min_eq_left (by omega)]
      have := fl_digits 24 (by norm_num) (n + 1) (by omega) 0
      rw [zpow_zero, mul_one] at this
      push_cast at this ⊢
      exact this
    · rw [min_eq_right (by omega), min_eq_right (by omega)]
      rw [show ((2 ^ 24 : ℕ) : ℝ) = 2 ^ 24 by norm_num]
      exact float32_stuck

/-- C157. In single precision the total mass of equal particles stops growing at 2^24 = 16777216 of them: for more, the mean velocity of particles which all move with
velocity 1 is computed to be `n / 2^24` instead of 1. -/
theorem C157_mean_refuted (n : ℕ) (h1 : 2 ^ 24 ≤ n) (h2 : n ≤ 2 ^ 53) :
    cyMean float64 float32 (List.replicate n ⟨![1, 0, 0], 1⟩) 0 = n / 2 ^ 24 := by
  rw [cyMean_apply, List.map_replicate, List.map_replicate]
  show List.foldl _ 0 (List.replicate n (float64.rnd (float64.rnd (1 * 1) / totalSingle float64 float32 (List.replicate n 1)))) = _
  rw [total_ones, min_eq_right h1]
  have e1 : float64.rnd (1 * 1) = 1 := by
    have := fl_digits 53 (by norm_num) 1 (by norm_num) 0
    rw [zpow_zero, Nat.cast_one] at this
    exact this.trans (mul_one 1)
  have e2 : float64.rnd (1 / ((2 ^ 24 : ℕ) : ℝ)) = 1 / 2 ^ 24 := by
    have := fl_digits 53 (by norm_num) 1 (by norm_num) (-24)
    rw [Nat.cast_one, one_mul, show ((2 : ℝ) ^ (-24 : ℤ)) = 1 / 2 ^ 24 by norm_num] at this
    rw [show ((2 ^ 24 : ℕ) : ℝ) = 2 ^ 24 by norm_num]
    exact this
  rw [e1, e2]
  clear h1 e1 e2
  induction n with
  | zero => simp
  | succ n ih =>
    rw [List.replicate_succ', List.foldl_append, ih (by omega)]
    show float64.rnd ((n : ℝ) / 2 ^ 24 + 1 / 2 ^ 24) = _
    have := fl_digits 53 (by norm_num) (n + 1) h2 (-24)
    rw [show ((2 : ℝ) ^ (-24 : ℤ)) = 1 / 2 ^ 24 by norm_num] at this
    rw [show (n : ℝ) / 2 ^ 24 + 1 / 2 ^ 24 = ((n + 1 : ℕ) : ℝ) * (1 / 2 ^ 24) by push_cast; ring]
    rw [show ((n + 1 : ℕ) : ℝ) / 2 ^ 24 = ((n + 1 : ℕ) : ℝ) * (1 / 2 ^ 24) by ring]
    exact this

/-- The hypotheses of `C157_mean_partial` hold for the arithmetic of the code and a million particles. -/
example : float64.u ≤ float32.u ∧ (3 * (1000000 + 1) : ℕ) * float32.u ≤ 1 / 2 := by
  have a : float64.u = (1 / 2) ^ 53 := rfl
  have b : float32.u = (1 / 2) ^ 24 := rfl
  rw [a, b]
  norm_num

end Verif.Round
