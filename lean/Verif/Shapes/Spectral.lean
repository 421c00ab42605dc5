import Verif.Shapes.Symm
import Mathlib.LinearAlgebra.Matrix.NonsingularInverse

/-!
# Uniqueness of the spectral decomposition

Two orthonormal bases of eigenvectors of a symmetric tensor have the same (sorted) eigenvalues, and
every quadratic form whose coefficients are functions of the eigenvalues is the same in both.
-/

namespace Verif.Shapes

open Matrix

theorem dot_eq (u v : Vec ℝ) : dot u v = u ⬝ᵥ v := by
  simp [dot, dotProduct, Fin.sum_univ_three]

theorem dot_comm (u v : Vec ℝ) : dot u v = dot v u := by unfold dot; ring

theorem isEigenvector_iff (t : Tensor) (l : ℝ) (v : Vec ℝ) :
    IsEigenvector t l v ↔ Matrix.of t *ᵥ v = l • v := by
  unfold IsEigenvector
  rw [funext_iff]
  simp [Matrix.mulVec, dotProduct, Fin.sum_univ_three]

/-- Three orthonormal vectors. -/
def Frame3 (u : Fin 3 → Vec ℝ) : Prop := ∀ k j, dot (u k) (u j) = if k = j then 1 else 0

theorem Frame3.mul_transpose {u : Fin 3 → Vec ℝ} (h : Frame3 u) :
    Matrix.of u * (Matrix.of u)ᵀ = 1 := by
  ext k j
  rw [Matrix.mul_apply', Matrix.one_apply, ← h k j, dot_eq]
  rfl

theorem Frame3.transpose_mul {u : Fin 3 → Vec ℝ} (h : Frame3 u) :
    (Matrix.of u)ᵀ * Matrix.of u = 1 := mul_eq_one_comm.1 h.mul_transpose

theorem weighted_le {c : Fin 3 → ℝ} (hc : c 0 ^ 2 + c 1 ^ 2 + c 2 ^ 2 = 1) {l : Fin 3 → ℝ}
    (hl : l 0 ≤ l 1 ∧ l 1 ≤ l 2) :
    l 0 ≤ l 0 * c 0 ^ 2 + l 1 * c 1 ^ 2 + l 2 * c 2 ^ 2 ∧
    l 0 * c 0 ^ 2 + l 1 * c 1 ^ 2 + l 2 * c 2 ^ 2 ≤ l 2 := by
  have h0 := sq_nonneg (c 0)
  have h1 := sq_nonneg (c 1)
  have h2 := sq_nonneg (c 2)
  have a1 := mul_nonneg (sub_nonneg.2 hl.1) h1
  have a2 := mul_nonneg (sub_nonneg.2 (hl.1.trans hl.2)) h2
  have b0 := mul_nonneg (sub_nonneg.2 (hl.1.trans hl.2)) h0
  have b1 := mul_nonneg (sub_nonneg.2 hl.2) h1
  have e0 : l 0 * (c 0 ^ 2 + c 1 ^ 2 + c 2 ^ 2) = l 0 := by rw [hc, mul_one]
  have e2 : l 2 * (c 0 ^ 2 + c 1 ^ 2 + c 2 ^ 2) = l 2 := by rw [hc, mul_one]
  constructor <;> linarith

theorem spectral (t : Tensor) (hsym : ∀ i j, t i j = t j i) (l l' : Fin 3 → ℝ) (u w : Fin 3 → Vec ℝ)
    (hu : Frame3 u) (hw : Frame3 w)
    (eu : ∀ k, IsEigenvector t (l k) (u k)) (ew : ∀ k, IsEigenvector t (l' k) (w k))
    (ol : l 0 ≤ l 1 ∧ l 1 ≤ l 2) (ol' : l' 0 ≤ l' 1 ∧ l' 1 ≤ l' 2) :
    l' = l ∧ ∀ (f : ℝ → ℝ) (y : Vec ℝ),
      f (l 0) * dot (w 0) y ^ 2 + f (l 1) * dot (w 1) y ^ 2 + f (l 2) * dot (w 2) y ^ 2 =
      f (l 0) * dot (u 0) y ^ 2 + f (l 1) * dot (u 1) y ^ 2 + f (l 2) * dot (u 2) y ^ 2 := by
  set U : Matrix (Fin 3) (Fin 3) ℝ := Matrix.of u with hU
  set W : Matrix (Fin 3) (Fin 3) ℝ := Matrix.of w with hW
  set C : Matrix (Fin 3) (Fin 3) ℝ := U * Wᵀ with hC
  have c1 : C * Cᵀ = 1 := by
    rw [hC, Matrix.transpose_mul, Matrix.transpose_transpose, Matrix.mul_assoc, ← Matrix.mul_assoc Wᵀ,
      hw.transpose_mul, Matrix.one_mul, hu.mul_transpose]
  have c2 : Cᵀ * C = 1 := mul_eq_one_comm.1 c1
  have cdot : ∀ k j, C k j = dot (u k) (w j) := by
    intro k j
    rw [hC, Matrix.mul_apply', dot_eq]
    rfl
  -- overlaps vanish unless eigenvalues agree
  have over : ∀ k j, l k * C k j = C k j * l' j := by
    intro k j
    rw [cdot]
    have h1 := eu k
    have h2 := ew j
    unfold IsEigenvector at h1 h2
    have a0 := h1 0
    have a1 := h1 1
    have a2 := h1 2
    have b0 := h2 0
    have b1 := h2 1
    have b2 := h2 2
    rw [hsym 1 0, hsym 2 0, hsym 2 1] at *
    unfold dot
    linear_combination (-w j 0) * a0 - w j 1 * a1 - w j 2 * a2 + u k 0 * b0 + u k 1 * b1 + u k 2 * b2
  have row : ∀ k m, C k 0 * C m 0 + C k 1 * C m 1 + C k 2 * C m 2 = if k = m then 1 else 0 := by
    intro k m
    have := congrFun (congrFun c1 k) m
    simpa [Matrix.mul_apply, Fin.sum_univ_three, Matrix.one_apply] using this
  have col : ∀ j m, C 0 j * C 0 m + C 1 j * C 1 m + C 2 j * C 2 m = if j = m then 1 else 0 := by
    intro k m
    have := congrFun (congrFun c2 k) m
    simpa [Matrix.mul_apply, Fin.sum_univ_three, Matrix.one_apply] using this
  have rows : ∀ k, C k 0 ^ 2 + C k 1 ^ 2 + C k 2 ^ 2 = 1 := by
    intro k; have := row k k; rw [if_pos rfl] at this; linarith
  have cols : ∀ j, C 0 j ^ 2 + C 1 j ^ 2 + C 2 j ^ 2 = 1 := by
    intro j; have := col j j; rw [if_pos rfl] at this; linarith
  have ev' : ∀ j, l' j = l 0 * C 0 j ^ 2 + l 1 * C 1 j ^ 2 + l 2 * C 2 j ^ 2 := by
    intro j
    linear_combination (-l' j) * cols j - C 0 j * over 0 j - C 1 j * over 1 j - C 2 j * over 2 j
  have ev : ∀ k, l k = l' 0 * C k 0 ^ 2 + l' 1 * C k 1 ^ 2 + l' 2 * C k 2 ^ 2 := by
    intro k
    linear_combination (-l k) * rows k + C k 0 * over k 0 + C k 1 * over k 1 + C k 2 * over k 2
  have e2 : l' 2 = l 2 := by
    apply le_antisymm
    · have := (weighted_le (c := fun k => C k 2) (cols 2) ol).2
      rw [ev' 2]; exact this
    · have := (weighted_le (c := fun j => C 2 j) (rows 2) ol').2
      rw [ev 2]; exact this
  have e0 : l' 0 = l 0 := by
    apply le_antisymm
    · have := (weighted_le (c := fun j => C 0 j) (rows 0) ol').1
      rw [ev 0]; exact this
    · have := (weighted_le (c := fun k => C k 0) (cols 0) ol).1
      rw [ev' 0]; exact this
  have e1 : l' 1 = l 1 := by
    have a := ev' 0
    have b := ev' 1
    have c := ev' 2
    have tr : l' 0 + l' 1 + l' 2 = l 0 + l 1 + l 2 := by
      linear_combination a + b + c + l 0 * rows 0 + l 1 * rows 1 + l 2 * rows 2
    linarith
  have el : l' = l := by
    funext k
    fin_cases k
    · exact e0
    · exact e1
    · exact e2
  refine ⟨el, fun f y => ?_⟩
  have hf : ∀ k j, f (l j) * C k j = f (l k) * C k j := by
    intro k j
    by_cases h0 : C k j = 0
    · rw [h0, mul_zero, mul_zero]
    · have := over k j
      rw [el, mul_comm] at this
      rw [mul_left_cancel₀ h0 this]
  -- components in the other frame
  have comp : ∀ j, dot (w j) y = C 0 j * dot (u 0) y + C 1 j * dot (u 1) y + C 2 j * dot (u 2) y := by
    intro j
    have h1 : W *ᵥ y = Cᵀ *ᵥ (U *ᵥ y) := by
      rw [Matrix.mulVec_mulVec, hC, Matrix.transpose_mul, Matrix.transpose_transpose, Matrix.mul_assoc,
        hu.transpose_mul, Matrix.mul_one]
    have := congrFun h1 j
    simp only [Matrix.mulVec, dotProduct, Fin.sum_univ_three, Matrix.transpose_apply] at this
    unfold dot
    exact this
  rw [comp 0, comp 1, comp 2]
  generalize dot (u 0) y = a0
  generalize dot (u 1) y = a1
  generalize dot (u 2) y = a2
  have r00 := row 0 0
  have r11 := row 1 1
  have r22 := row 2 2
  have r01 := row 0 1
  have r02 := row 0 2
  have r12 := row 1 2
  rw [if_pos rfl] at r00 r11 r22
  rw [if_neg (by decide)] at r01 r02 r12
  have S : ∀ j, f (l j) * (C 0 j * a0 + C 1 j * a1 + C 2 j * a2) ^ 2 =
      (f (l 0) * C 0 j * a0 + f (l 1) * C 1 j * a1 + f (l 2) * C 2 j * a2) *
        (C 0 j * a0 + C 1 j * a1 + C 2 j * a2) := by
    intro j
    rw [← hf 0 j, ← hf 1 j, ← hf 2 j]
    ring
  rw [S 0, S 1, S 2]
  linear_combination f (l 0) * a0 ^ 2 * r00 + f (l 1) * a1 ^ 2 * r11 + f (l 2) * a2 ^ 2 * r22 +
    (f (l 0) + f (l 1)) * a0 * a1 * r01 + (f (l 0) + f (l 2)) * a0 * a2 * r02 +
    (f (l 1) + f (l 2)) * a1 * a2 * r12

end Verif.Shapes
