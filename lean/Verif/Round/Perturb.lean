import Verif.Shapes.Spectral

/-!
# Eigenvalues of tensors which differ little
-/

namespace Verif.Round

open Verif.Shapes
open Verif (Vec)

/-- The quadratic form of a tensor. -/
def form (t : Tensor) (v : Vec ℝ) : ℝ := dot v fun i => t i 0 * v 0 + t i 1 * v 1 + t i 2 * v 2

/-- Unit vectors in the directions of given vectors. -/
noncomputable def unit (u : Fin 3 → Vec ℝ) : Fin 3 → Vec ℝ := fun k i => (√(dot (u k) (u k)))⁻¹ * u k i

theorem dot_self_pos {v : Vec ℝ} (h : v ≠ 0) : 0 < dot v v := by
  have h0 : 0 ≤ dot v v := by unfold dot; nlinarith [sq_nonneg (v 0), sq_nonneg (v 1), sq_nonneg (v 2)]
  refine lt_of_le_of_ne h0 fun e => h ?_
  unfold dot at e
  have e0 : v 0 = 0 := by nlinarith [sq_nonneg (v 0), sq_nonneg (v 1), sq_nonneg (v 2)]
  have e1 : v 1 = 0 := by nlinarith [sq_nonneg (v 0), sq_nonneg (v 1), sq_nonneg (v 2)]
  have e2 : v 2 = 0 := by nlinarith [sq_nonneg (v 0), sq_nonneg (v 1), sq_nonneg (v 2)]
  funext i
  fin_cases i
  · exact e0
  · exact e1
  · exact e2

theorem unit_frame {u : Fin 3 → Vec ℝ} (ho : ∀ k l, k ≠ l → dot (u k) (u l) = 0) (hn : ∀ k, u k ≠ 0) : Frame3 (unit u) := by
  have key : ∀ k l, dot (unit u k) (unit u l) = (√(dot (u k) (u k)))⁻¹ * (√(dot (u l) (u l)))⁻¹ * dot (u k) (u l) := by
    intro k l
    unfold unit
    generalize (√(dot (u k) (u k)))⁻¹ = x
    generalize (√(dot (u l) (u l)))⁻¹ = y
    unfold dot
    ring
  intro k l
  rw [key]
  by_cases h : k = l
  · subst h
    have hp := dot_self_pos (hn k)
    rw [if_pos rfl, ← mul_inv, Real.mul_self_sqrt hp.le, inv_mul_cancel₀ hp.ne']
  · rw [if_neg h, ho k l h, mul_zero]

theorem frame_entries {n : Fin 3 → Vec ℝ} (h : Frame3 n) (i j : Fin 3) :
    n 0 i * n 0 j + n 1 i * n 1 j + n 2 i * n 2 j = if i = j then 1 else 0 := by
  have := congrFun (congrFun h.transpose_mul i) j
  rw [Matrix.mul_apply, Fin.sum_univ_three, Matrix.one_apply] at this
  exact this

theorem frame_norm {n : Fin 3 → Vec ℝ} (h : Frame3 n) (v : Vec ℝ) :
    dot (n 0) v ^ 2 + dot (n 1) v ^ 2 + dot (n 2) v ^ 2 = dot v v := by
  have e := frame_entries h
  have e00 := e 0 0
  have e11 := e 1 1
  have e22 := e 2 2
  have e01 := e 0 1
  have e02 := e 0 2
  have e12 := e 1 2
  simp only [if_true] at e00 e11 e22
  rw [if_neg (by decide)] at e01 e02 e12
  unfold dot
  linear_combination v 0 ^ 2 * e00 + v 1 ^ 2 * e11 + v 2 ^ 2 * e22 + 2 * v 0 * v 1 * e01 + 2 * v 0 * v 2 * e02 + 2 * v 1 * v 2 * e12

theorem frame_expand {n : Fin 3 → Vec ℝ} (h : Frame3 n) (v : Vec ℝ) (i : Fin 3) :
    dot (n 0) v * n 0 i + dot (n 1) v * n 1 i + dot (n 2) v * n 2 i = v i := by
  have e0 := frame_entries h i 0
  have e1 := frame_entries h i 1
  have e2 := frame_entries h i 2
  unfold dot
  have : (if i = 0 then (1 : ℝ) else 0) * v 0 + (if i = 1 then (1 : ℝ) else 0) * v 1 + (if i = 2 then (1 : ℝ) else 0) * v 2 = v i := by
    fin_cases i <;> simp
  linear_combination v 0 * e0 + v 1 * e1 + v 2 * e2 + this

/-- Diagonal form. -/
theorem form_eq {t : Tensor} {e : Eigen} (h : IsEigen t e) (v : Vec ℝ) :
    form t v = e.val 0 * dot (unit e.vec 0) v ^ 2 + e.val 1 * dot (unit e.vec 1) v ^ 2 + e.val 2 * dot (unit e.vec 2) v ^ 2 := by
  have hf := unit_frame h.orth h.nonzero
  have hx := frame_expand hf v
  have he : ∀ k i, t i 0 * unit e.vec k 0 + t i 1 * unit e.vec k 1 + t i 2 * unit e.vec k 2 = e.val k * unit e.vec k i := by
    intro k i
    have := h.eigen k i
    unfold unit
    linear_combination (√(dot (e.vec k) (e.vec k)))⁻¹ * this
  have h0 := hx 0
  have h1 := hx 1
  have h2 := hx 2
  set n := unit e.vec
  have hi : ∀ i, t i 0 * v 0 + t i 1 * v 1 + t i 2 * v 2 =
      e.val 0 * (dot (n 0) v * n 0 i) + e.val 1 * (dot (n 1) v * n 1 i) + e.val 2 * (dot (n 2) v * n 2 i) := by
    intro i
    have a0 := he 0 i
    have a1 := he 1 i
    have a2 := he 2 i
    generalize dot (n 0) v = c0 at *
    generalize dot (n 1) v = c1 at *
    generalize dot (n 2) v = c2 at *
    linear_combination c0 * a0 + c1 * a1 + c2 * a2 - t i 0 * h0 - t i 1 * h1 - t i 2 * h2
  unfold form
  rw [show (fun i => t i 0 * v 0 + t i 1 * v 1 + t i 2 * v 2) = fun i => e.val 0 * (dot (n 0) v * n 0 i) +
    e.val 1 * (dot (n 1) v * n 1 i) + e.val 2 * (dot (n 2) v * n 2 i) from funext hi]
  have d : ∀ k, dot (n k) v = n k 0 * v 0 + n k 1 * v 1 + n k 2 * v 2 := fun _ => rfl
  have d0 := d 0
  have d1 := d 1
  have d2 := d 2
  generalize dot (n 0) v = c0 at *
  generalize dot (n 1) v = c1 at *
  generalize dot (n 2) v = c2 at *
  show v 0 * _ + v 1 * _ + v 2 * _ = _
  linear_combination -e.val 0 * c0 * d0 - e.val 1 * c1 * d1 - e.val 2 * c2 * d2

theorem form_le {t : Tensor} {e : Eigen} (h : IsEigen t e) (v : Vec ℝ) :
    e.val 0 * dot v v ≤ form t v ∧ form t v ≤ e.val 2 * dot v v := by
  rw [form_eq h, ← frame_norm (unit_frame h.orth h.nonzero) v]
  have h0 := sq_nonneg (dot (unit e.vec 0) v)
  have h1 := sq_nonneg (dot (unit e.vec 1) v)
  have h2 := sq_nonneg (dot (unit e.vec 2) v)
  obtain ⟨o1, o2⟩ := h.ordered
  constructor <;> nlinarith

theorem form_vec {t : Tensor} {e : Eigen} (h : IsEigen t e) (k : Fin 3) : form t (e.vec k) = e.val k * dot (e.vec k) (e.vec k) := by
  unfold form
  rw [show (fun i => t i 0 * e.vec k 0 + t i 1 * e.vec k 1 + t i 2 * e.vec k 2) = fun i => e.val k * e.vec k i from funext (h.eigen k)]
  unfold dot
  ring

theorem trace_eq {t : Tensor} {e : Eigen} (h : IsEigen t e) : t 0 0 + t 1 1 + t 2 2 = e.val 0 + e.val 1 + e.val 2 := by
  have hf := unit_frame h.orth h.nonzero
  have f0 := form_eq h ![1, 0, 0]
  have f1 := form_eq h ![0, 1, 0]
  have f2 := form_eq h ![0, 0, 1]
  have n0 := hf 0 0
  have n1 := hf 1 1
  have n2 := hf 2 2
  set n := unit e.vec
  simp only [form, dot, Matrix.cons_val_zero, Matrix.cons_val_one, Matrix.cons_val, if_true, mul_zero, mul_one, add_zero, zero_add, zero_mul, one_mul] at f0 f1 f2 n0 n1 n2
  linear_combination f0 + f1 + f2 + e.val 0 * n0 + e.val 1 * n1 + e.val 2 * n2

/-- Eigenvalues of two tensors whose forms differ by at most `ε`. -/
theorem eigenvalues_near {t t' : Tensor} {e e' : Eigen} (h : IsEigen t e) (h' : IsEigen t' e') {ε : ℝ}
    (hd : ∀ v, |form t' v - form t v| ≤ ε * dot v v) :
    |e'.val 0 - e.val 0| ≤ ε ∧ |e'.val 1 - e.val 1| ≤ 5 * ε ∧ |e'.val 2 - e.val 2| ≤ ε := by
  have cancel : ∀ {a b : ℝ} {v : Vec ℝ}, v ≠ 0 → a * dot v v ≤ b * dot v v → a ≤ b :=
    fun hv hab => le_of_mul_le_mul_right hab (dot_self_pos hv)
  have a0 : e'.val 0 ≤ e.val 0 + ε := cancel (h.nonzero 0) (by
    have := (form_le h' (e.vec 0)).1
    have h2 := form_vec h 0
    have h3 := (abs_le.1 (hd (e.vec 0))).2
    rw [add_mul]; linarith)
  have b0 : e.val 0 ≤ e'.val 0 + ε := cancel (h'.nonzero 0) (by
    have := (form_le h (e'.vec 0)).1
    have h2 := form_vec h' 0
    have h3 := (abs_le.1 (hd (e'.vec 0))).1
    rw [add_mul]; linarith)
  have a2 : e'.val 2 ≤ e.val 2 + ε := cancel (h'.nonzero 2) (by
    have := (form_le h (e'.vec 2)).2
    have h2 := form_vec h' 2
    have h3 := (abs_le.1 (hd (e'.vec 2))).2
    rw [add_mul]; linarith)
  have b2 : e.val 2 ≤ e'.val 2 + ε := cancel (h.nonzero 2) (by
    have := (form_le h' (e.vec 2)).2
    have h2 := form_vec h 2
    have h3 := (abs_le.1 (hd (e.vec 2))).1
    rw [add_mul]; linarith)
  have k0 := abs_le.1 (hd ![1, 0, 0])
  have k1 := abs_le.1 (hd ![0, 1, 0])
  have k2 := abs_le.1 (hd ![0, 0, 1])
  simp only [form, dot, Matrix.cons_val_zero, Matrix.cons_val_one, Matrix.cons_val, mul_zero, mul_one, add_zero, zero_add, zero_mul, one_mul] at k0 k1 k2
  have t1 := trace_eq h
  have t2 := trace_eq h'
  refine ⟨abs_le.2 ⟨by linarith, by linarith⟩, abs_le.2 ⟨by linarith [k0.1, k1.1, k2.1], by linarith [k0.2, k1.2, k2.2]⟩, abs_le.2 ⟨by linarith, by linarith⟩⟩

end Verif.Round
