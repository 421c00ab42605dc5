import Verif.Round.Model

/-!
# Propagation of rounding errors
-/

namespace Verif.Round

variable (R : Rounding)

/-- `y` is `x` times a factor between `(1-u)^k` and `1/(1-u)^k`. -/
def Rel (k : Nat) (y x : ℝ) : Prop := ∃ t, y = x * t ∧ (1 - R.u) ^ k ≤ t ∧ t ≤ ((1 - R.u)⁻¹) ^ k

theorem base_pos : 0 < 1 - R.u := by have := R.u_lt; linarith

theorem base_le : 1 - R.u ≤ 1 := by have := R.u_nonneg; linarith

theorem one_le_inv : 1 ≤ (1 - R.u)⁻¹ := (one_le_inv₀ (base_pos R)).2 (base_le R)

theorem Rel.refl (k : Nat) (x : ℝ) : Rel R k x x :=
  ⟨1, (mul_one x).symm, pow_le_one₀ (base_pos R).le (base_le R), one_le_pow₀ (one_le_inv R)⟩

variable {R}

theorem Rel.mono {k l : Nat} (hkl : k ≤ l) {y x : ℝ} (h : Rel R k y x) : Rel R l y x := by
  obtain ⟨t, e, h1, h2⟩ := h
  exact ⟨t, e, (pow_le_pow_of_le_one (base_pos R).le (base_le R) hkl).trans h1,
    h2.trans (pow_le_pow_right₀ (one_le_inv R) hkl)⟩

theorem Rel.trans {k l : Nat} {z y x : ℝ} (h : Rel R k z y) (h' : Rel R l y x) : Rel R (k + l) z x := by
  obtain ⟨t, rfl, h1, h2⟩ := h
  obtain ⟨s, rfl, h3, h4⟩ := h'
  have hp := pow_pos (base_pos R)
  refine ⟨s * t, by ring, ?_, ?_⟩
  · rw [pow_add, mul_comm s]
    exact mul_le_mul h1 h3 (hp l).le ((hp k).le.trans h1)
  · rw [pow_add, mul_comm s]
    exact mul_le_mul h2 h4 ((hp l).le.trans h3) ((hp k).le.trans (h1.trans h2))

theorem Rel.mul {k l : Nat} {y x y' x' : ℝ} (h : Rel R k y x) (h' : Rel R l y' x') : Rel R (k + l) (y * y') (x * x') := by
  obtain ⟨t, rfl, h1, h2⟩ := h
  obtain ⟨s, rfl, h3, h4⟩ := h'
  have hp := pow_pos (base_pos R)
  refine ⟨t * s, by ring, ?_, ?_⟩
  · rw [pow_add]
    exact mul_le_mul h1 h3 (hp l).le ((hp k).le.trans h1)
  · rw [pow_add]
    exact mul_le_mul h2 h4 ((hp l).le.trans h3) ((hp k).le.trans (h1.trans h2))

theorem Rel.inv {k : Nat} {y x : ℝ} (h : Rel R k y x) : Rel R k y⁻¹ x⁻¹ := by
  obtain ⟨t, rfl, h1, h2⟩ := h
  have hp := pow_pos (base_pos R) k
  have ht := hp.trans_le h1
  refine ⟨t⁻¹, mul_inv x t, ?_, ?_⟩
  · rw [inv_pow] at h2
    exact (le_inv_comm₀ ht hp).1 h2
  · rw [inv_pow]
    exact inv_anti₀ hp h1

theorem Rel.div {k l : Nat} {y x y' x' : ℝ} (h : Rel R k y x) (h' : Rel R l y' x') : Rel R (k + l) (y / y') (x / x') := by
  rw [div_eq_mul_inv, div_eq_mul_inv]
  exact h.mul h'.inv

theorem Rel.pow {k : Nat} {y x : ℝ} (h : Rel R k y x) (n : Nat) : Rel R (n * k) (y ^ n) (x ^ n) := by
  induction n with
  | zero => simpa using Rel.refl R 0 1
  | succ n ih => rw [pow_succ, pow_succ, Nat.succ_mul]; exact ih.mul h

theorem Rel.pos {k : Nat} {y x : ℝ} (h : Rel R k y x) (hx : 0 < x) : 0 < y := by
  obtain ⟨t, rfl, h1, -⟩ := h
  exact mul_pos hx ((pow_pos (base_pos R) k).trans_le h1)

theorem Rel.nonneg {k : Nat} {y x : ℝ} (h : Rel R k y x) (hx : 0 ≤ x) : 0 ≤ y := by
  obtain ⟨t, rfl, h1, -⟩ := h
  exact mul_nonneg hx ((pow_pos (base_pos R) k).le.trans h1)

theorem inv_sub_one_ge (R : Rounding) (k : Nat) : 1 - (1 - R.u) ^ k ≤ (1 - R.u)⁻¹ ^ k - 1 := by
  have hp := pow_pos (base_pos R) k
  rw [inv_pow]
  have h := add_div_two_ge_of_inv hp
  linarith
where
  add_div_two_ge_of_inv {a : ℝ} (ha : 0 < a) : 2 ≤ a + a⁻¹ := by
    have : a + a⁻¹ - 2 = (a - 1) ^ 2 / a := by field_simp; ring
    have h2 : 0 ≤ (a - 1) ^ 2 / a := by positivity
    linarith

/-- The error in absolute terms. -/
theorem Rel.err {k : Nat} {y x : ℝ} (h : Rel R k y x) : |y - x| ≤ ((1 - R.u)⁻¹ ^ k - 1) * |x| := by
  obtain ⟨t, rfl, h1, h2⟩ := h
  have : x * t - x = (t - 1) * x := by ring
  rw [this, abs_mul]
  refine mul_le_mul_of_nonneg_right ?_ (abs_nonneg x)
  rw [abs_le]
  have := inv_sub_one_ge R k
  constructor <;> linarith

/-- One rounding. -/
theorem rel_rnd (R : Rounding) (x : ℝ) : Rel R 1 (R.rnd x) x := by
  have hb := base_pos R
  rcases eq_or_ne x 0 with rfl | hx
  · have h := R.err 0
    rw [abs_zero, mul_zero, sub_zero, abs_nonpos_iff] at h
    rw [h]
    exact Rel.refl R 1 0
  · refine ⟨R.rnd x / x, by field_simp, ?_, ?_⟩
    all_goals
      have h := R.err x
      have h1 : R.rnd x / x - 1 = (R.rnd x - x) / x := by field_simp
      have h2 : |R.rnd x / x - 1| ≤ R.u := by
        rw [h1, abs_div, div_le_iff₀ (abs_pos.2 hx)]
        exact h
      rw [abs_le] at h2
    · rw [pow_one]; linarith
    · rw [pow_one]
      have h3 : 1 + R.u ≤ (1 - R.u)⁻¹ := by
        rw [le_inv_comm₀ (by linarith [R.u_nonneg]) hb, inv_eq_one_div, le_div_iff₀ (by linarith [R.u_nonneg])]
        nlinarith [R.u_nonneg, sq_nonneg R.u]
      linarith

theorem rel_round {k : Nat} {y x : ℝ} (h : Rel R k y x) : Rel R (k + 1) (R.rnd y) x := by
  have := (rel_rnd R y).trans h
  rwa [add_comm] at this

theorem rnd_zero (R : Rounding) : R.rnd 0 = 0 := by
  have h := R.err 0
  rwa [abs_zero, mul_zero, sub_zero, abs_nonpos_iff] at h

theorem rnd_nonneg (R : Rounding) {x : ℝ} (hx : 0 ≤ x) : 0 ≤ R.rnd x := by
  have := R.mono hx
  rwa [rnd_zero] at this

theorem rnd_pos (R : Rounding) {x : ℝ} (hx : 0 < x) : 0 < R.rnd x := (rel_rnd R x).pos hx

/-! ## Sums -/

theorem Rel.forall₂_map_rnd {k : Nat} {l' l : List ℝ} (h : List.Forall₂ (Rel R k) l' l) (t : ℝ)
    (h1 : 1 - R.u ≤ t) (h2 : t ≤ (1 - R.u)⁻¹) : List.Forall₂ (Rel R (k + 1)) (l'.map (· * t)) l := by
  rw [List.forall₂_map_left_iff]
  refine h.imp fun y x hr => ?_
  have hr' : Rel R 1 (y * t) y := ⟨t, rfl, by rwa [pow_one], by rwa [pow_one]⟩
  have := hr'.trans hr
  rwa [add_comm] at this

/-- Rounding a sum is changing every number a little. -/
theorem round_sum {k : Nat} {l' l : List ℝ} (h : List.Forall₂ (Rel R k) l' l) :
    ∃ l'', List.Forall₂ (Rel R (k + 1)) l'' l ∧ R.rnd l'.sum = l''.sum := by
  obtain ⟨t, e, h1, h2⟩ := rel_rnd R l'.sum
  rw [pow_one] at h1 h2
  exact ⟨l'.map (· * t), Rel.forall₂_map_rnd h t h1 h2, by rw [e, List.sum_map_mul_right, List.map_id']⟩

/-- A computed sum is the exact sum of slightly changed numbers. -/
theorem Sums.rel {l : List ℝ} {s : ℝ} (h : Sums R l s) : ∃ l', List.Forall₂ (Rel R l.length) l' l ∧ s = l'.sum := by
  induction h with
  | nil => exact ⟨[], .nil, rfl⟩
  | single x => exact ⟨[x], .cons (Rel.refl R _ x) .nil, by simp⟩
  | join l l' hl hl' s s' h h' ih ih' =>
    obtain ⟨m, hm, rfl⟩ := ih
    obtain ⟨m', hm', rfl⟩ := ih'
    have h1 := List.length_pos_iff.2 hl
    have h2 := List.length_pos_iff.2 hl'
    have hj : List.Forall₂ (Rel R (l.length + l'.length - 1)) (m ++ m') (l ++ l') :=
      List.rel_append (hm.imp fun _ _ r => r.mono (by omega)) (hm'.imp fun _ _ r => r.mono (by omega))
    obtain ⟨n, hn, e⟩ := round_sum hj
    refine ⟨n, hn.imp fun _ _ r => r.mono (by rw [List.length_append]; omega), ?_⟩
    rw [Rounding.add, ← List.sum_append, e]
  | perm l l' s h hp ih =>
    obtain ⟨m, hm, rfl⟩ := ih
    obtain ⟨m', hm', hp'⟩ := List.perm_comp_forall₂ hp.symm (List.Forall₂.flip hm)
    exact ⟨m', by rw [← hp.length_eq]; exact hm'.flip, hp'.sum_eq.symm⟩

/-- Adding one after the other, from a start value. -/
theorem foldl_rel (l : List ℝ) (a : ℝ) : ∃ l', List.Forall₂ (Rel R l.length) l' (a :: l) ∧ l.foldl R.add a = l'.sum := by
  suffices H : ∀ (l : List ℝ) (pre : List ℝ) (k : Nat) (pre' : List ℝ) (_ : List.Forall₂ (Rel R k) pre' pre),
      ∃ l', List.Forall₂ (Rel R (k + l.length)) l' (pre ++ l) ∧ l.foldl R.add pre'.sum = l'.sum by
    obtain ⟨l', h, e⟩ := H l [a] 0 [a] (.cons (Rel.refl R 0 a) .nil)
    refine ⟨l', h.imp fun _ _ r => r.mono (by omega), ?_⟩
    rw [← e]
    simp
  intro l
  induction l with
  | nil => intro pre k pre' h; exact ⟨pre', by simpa using h, rfl⟩
  | cons x l ih =>
    intro pre k pre' h
    have h1 : List.Forall₂ (Rel R k) (pre' ++ [x]) (pre ++ [x]) := List.rel_append h (.cons (Rel.refl R k x) .nil)
    obtain ⟨n, hn, e⟩ := round_sum h1
    obtain ⟨l', hl', e'⟩ := ih (pre ++ [x]) (k + 1) n hn
    refine ⟨l', ?_, ?_⟩
    · rw [List.append_assoc, List.singleton_append] at hl'
      refine hl'.imp fun _ _ r => r.mono (by rw [List.length_cons]; omega)
    · rw [List.foldl_cons, ← e', ← e, Rounding.add]
      simp

/-- Non-negative numbers: the sum has the relative error of the terms. -/
theorem rel_sum_of_nonneg {k : Nat} {l' l : List ℝ} (h : List.Forall₂ (Rel R k) l' l) (hl : ∀ x ∈ l, 0 ≤ x) :
    Rel R k l'.sum l.sum := by
  have hp := pow_pos (base_pos R) k
  have key : (1 - R.u) ^ k * l.sum ≤ l'.sum ∧ l'.sum ≤ (1 - R.u)⁻¹ ^ k * l.sum ∧ 0 ≤ l.sum := by
    induction h with
    | nil => simp
    | @cons y x l' l hr _ ih =>
      obtain ⟨i1, i2, i3⟩ := ih fun z hz => hl z (List.mem_cons_of_mem _ hz)
      have hx := hl x List.mem_cons_self
      obtain ⟨t, rfl, h1, h2⟩ := hr
      simp only [List.sum_cons, mul_add]
      have := mul_le_mul_of_nonneg_left h1 hx
      have := mul_le_mul_of_nonneg_left h2 hx
      refine ⟨?_, ?_, ?_⟩ <;> linarith
  obtain ⟨h1, h2, h3⟩ := key
  rcases h3.eq_or_lt with h0 | h0
  · rw [← h0, mul_zero] at h1 h2
    rw [← h0, le_antisymm h2 h1]
    exact Rel.refl R k 0
  · refine ⟨l'.sum / l.sum, by field_simp, ?_, ?_⟩
    · rwa [le_div_iff₀ h0]
    · rwa [div_le_iff₀ h0]

/-- Numbers of both signs: the error is small compared to the sum of the absolute values. -/
theorem err_sum {k : Nat} {l' l : List ℝ} (h : List.Forall₂ (Rel R k) l' l) :
    |l'.sum - l.sum| ≤ ((1 - R.u)⁻¹ ^ k - 1) * (l.map abs).sum := by
  induction h with
  | nil => simp
  | @cons y x l' l hr _ ih =>
    simp only [List.sum_cons, List.map_cons, mul_add]
    have := hr.err
    have h2 : y + l'.sum - (x + l.sum) = (y - x) + (l'.sum - l.sum) := by ring
    rw [h2]
    exact (abs_add_le _ _).trans (by linarith)

theorem forall₂_rel_trans {k l : Nat} {a b c : List ℝ} (h : List.Forall₂ (Rel R k) a b) (h' : List.Forall₂ (Rel R l) b c) :
    List.Forall₂ (Rel R (k + l)) a c := by
  induction h generalizing c with
  | nil => cases h'; exact .nil
  | cons h1 _ ih => cases h' with | cons h2 h3 => exact .cons (h1.trans h2) (ih h3)

/-- Readable form of the error of `k` roundings. -/
theorem gamma_le (R : Rounding) (k : Nat) (h : k * R.u ≤ 1 / 2) : (1 - R.u)⁻¹ ^ k - 1 ≤ 2 * k * R.u := by
  have hb := one_add_mul_le_pow (a := -R.u) (by linarith [R.u_lt]) k
  have hpos := pow_pos (base_pos R) k
  have h1 : 1 - k * R.u ≤ (1 - R.u) ^ k := by
    calc 1 - k * R.u = 1 + k * -R.u := by ring
      _ ≤ (1 + -R.u) ^ k := hb
      _ = (1 - R.u) ^ k := by ring
  have h2 : 0 < 1 - k * R.u := by linarith
  have h0 : 0 ≤ k * R.u := mul_nonneg (Nat.cast_nonneg k) R.u_nonneg
  rw [inv_pow]
  calc ((1 - R.u) ^ k)⁻¹ - 1 ≤ (1 - k * R.u)⁻¹ - 1 := by linarith [inv_anti₀ h2 h1]
    _ ≤ 2 * k * R.u := by
      rw [sub_le_iff_le_add, inv_eq_one_div, div_le_iff₀ h2]
      nlinarith

theorem Rel.err' {k : Nat} {y x : ℝ} (h : Rel R k y x) (hk : k * R.u ≤ 1 / 2) : |y - x| ≤ 2 * k * R.u * |x| :=
  h.err.trans (mul_le_mul_of_nonneg_right (gamma_le R k hk) (abs_nonneg x))

/-- A coarser arithmetic allows more. -/
theorem Rel.coarser {R S : Rounding} (hRS : R.u ≤ S.u) {k : Nat} {y x : ℝ} (h : Rel R k y x) : Rel S k y x := by
  obtain ⟨t, e, h1, h2⟩ := h
  have hb : 1 - S.u ≤ 1 - R.u := by linarith
  exact ⟨t, e, (pow_le_pow_left₀ (base_pos S).le hb k).trans h1,
    h2.trans (pow_le_pow_left₀ (inv_nonneg.2 (base_pos R).le) (inv_anti₀ (base_pos S) hb) k)⟩

end Verif.Round
