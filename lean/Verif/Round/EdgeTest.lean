import Verif.Round.WholeShape
import Verif.Round.TrueCentre

/-!
# The test whether a particle is in the ellipsoid, with rounding

The computed ellipsoidal radius differs little from the one with respect to the exact principal axes and axis ratios, even if the axes
themselves are ill-determined.
-/

namespace Verif.Round

open Verif.Shapes
open Verif (Vec Particle)

/-- The form of the inverse tensor. -/
noncomputable def inverseForm (e : Eigen) (w : Vec ℝ) : ℝ :=
  dot (unit e.vec 0) w ^ 2 / e.val 0 + dot (unit e.vec 1) w ^ 2 / e.val 1 + dot (unit e.vec 2) w ^ 2 / e.val 2

theorem polar {n : Fin 3 → Vec ℝ} (h : Frame3 n) (u w : Vec ℝ) :
    dot u w = dot (n 0) u * dot (n 0) w + dot (n 1) u * dot (n 1) w + dot (n 2) u * dot (n 2) w := by
  have e := frame_expand h w
  have e0 := e 0
  have e1 := e 1
  have e2 := e 2
  generalize dot (n 0) w = a at *
  generalize dot (n 1) w = b at *
  generalize dot (n 2) w = c at *
  unfold dot
  rw [← e0, ← e1, ← e2]
  ring

theorem weighted_cauchy {l0 l1 l2 a0 a1 a2 b0 b1 b2 : ℝ} (h0 : 0 < l0) (h1 : 0 < l1) (h2 : 0 < l2) :
    (a0 * b0 + a1 * b1 + a2 * b2) ^ 2 ≤ (l0 * a0 ^ 2 + l1 * a1 ^ 2 + l2 * a2 ^ 2) * (b0 ^ 2 / l0 + b1 ^ 2 / l1 + b2 ^ 2 / l2) := by
  have key : (l0 * a0 ^ 2 + l1 * a1 ^ 2 + l2 * a2 ^ 2) * (b0 ^ 2 / l0 + b1 ^ 2 / l1 + b2 ^ 2 / l2) - (a0 * b0 + a1 * b1 + a2 * b2) ^ 2 =
      (l0 * a0 * b1 - l1 * a1 * b0) ^ 2 / (l0 * l1) + (l0 * a0 * b2 - l2 * a2 * b0) ^ 2 / (l0 * l2) +
        (l1 * a1 * b2 - l2 * a2 * b1) ^ 2 / (l1 * l2) := by
    field_simp
    ring
  have : 0 ≤ (l0 * a0 * b1 - l1 * a1 * b0) ^ 2 / (l0 * l1) + (l0 * a0 * b2 - l2 * a2 * b0) ^ 2 / (l0 * l2) +
        (l1 * a1 * b2 - l2 * a2 * b1) ^ 2 / (l1 * l2) := by positivity
  linarith

theorem inverseForm_nonneg {t : Tensor} {e : Eigen} (h : IsEigen t e) (p : 0 < e.val 0) (w : Vec ℝ) : 0 ≤ inverseForm e w := by
  have h1 := p.trans_le h.ordered.1
  have h2 := h1.trans_le h.ordered.2
  unfold inverseForm
  positivity

/-- The larger the tensor, the smaller its inverse. -/
theorem inverseForm_le {t₁ t₂ : Tensor} {e₁ e₂ : Eigen} (h₁ : IsEigen t₁ e₁) (h₂ : IsEigen t₂ e₂) (p₁ : 0 < e₁.val 0) (p₂ : 0 < e₂.val 0)
    {k : ℝ} (hk : 0 < k) (hf : ∀ v, k * form t₂ v ≤ form t₁ v) (w : Vec ℝ) : k * inverseForm e₁ w ≤ inverseForm e₂ w := by
  have p11 := p₁.trans_le h₁.ordered.1
  have p12 := p11.trans_le h₁.ordered.2
  have p21 := p₂.trans_le h₂.ordered.1
  have p22 := p21.trans_le h₂.ordered.2
  have hF := unit_frame h₁.orth h₁.nonzero
  have hI0 := inverseForm_nonneg h₁ p₁ w
  set I := inverseForm e₁ w with hI
  set n := unit e₁.vec with hn
  set c0 := dot (n 0) w / e₁.val 0 with hc0
  set c1 := dot (n 1) w / e₁.val 1 with hc1
  set c2 := dot (n 2) w / e₁.val 2 with hc2
  set u : Vec ℝ := fun i => c0 * n 0 i + c1 * n 1 i + c2 * n 2 i with hu
  have hd : ∀ k, dot (n k) u = c0 * dot (n k) (n 0) + c1 * dot (n k) (n 1) + c2 * dot (n k) (n 2) := by
    intro k
    rw [hu]
    unfold dot
    ring
  have d0 : dot (n 0) u = c0 := by rw [hd, hF, hF, hF]; simp
  have d1 : dot (n 1) u = c1 := by rw [hd, hF, hF, hF]; simp
  have d2 : dot (n 2) u = c2 := by rw [hd, hF, hF, hF]; simp
  have f1 : form t₁ u = I := by
    rw [form_eq h₁, ← hn, d0, d1, d2, hI, inverseForm, ← hn, hc0, hc1, hc2]
    field_simp
  have f2 : dot u w = I := by
    rw [polar hF u w, d0, d1, d2, hI, inverseForm, ← hn, hc0, hc1, hc2]
    field_simp
  have hc : dot u w ^ 2 ≤ form t₂ u * inverseForm e₂ w := by
    rw [polar (unit_frame h₂.orth h₂.nonzero) u w, form_eq h₂]
    exact weighted_cauchy p₂ p21 p22
  rw [f2] at hc
  have hle := hf u
  rw [f1] at hle
  have hJ := inverseForm_nonneg h₂ p₂ w
  rcases hI0.eq_or_lt with h0 | h0
  · rw [← h0, mul_zero]
    exact hJ
  · have h3 := mul_le_mul_of_nonneg_right hle hJ
    have h4 : k * (I ^ 2) ≤ I * inverseForm e₂ w := by
      calc k * I ^ 2 ≤ k * (form t₂ u * inverseForm e₂ w) := mul_le_mul_of_nonneg_left hc hk.le
        _ = k * form t₂ u * inverseForm e₂ w := by ring
        _ ≤ _ := h3
    refine le_of_mul_le_mul_left ?_ h0
    linarith

/-- A tensor close to another one, compared to its smallest eigenvalue: the ellipsoidal radii are close. -/
theorem radii_near {N T : Tensor} {l e : Eigen} (hN : IsEigen N l) (hT : IsEigen T e) (hl : 0 < l.val 0) {δ θ : ℝ} (hδ0 : 0 ≤ δ)
    (hθ : δ * l.val 2 ≤ θ * l.val 0) (hθ1 : θ ≤ 1 / 12) (hall : ∀ v, |form T v - form N v| ≤ δ * l.val 2 * dot v v) :
    0 < e.val 0 ∧ 10 * e.val 2 * l.val 0 ≤ 12 * (l.val 2 * e.val 0) ∧
    ∀ w, (1 - 2 * θ) * (l.val 2 * inverseForm l w) ≤ e.val 2 * inverseForm e w ∧
      e.val 2 * inverseForm e w ≤ (1 + 3 * θ) * (l.val 2 * inverseForm l w) := by
  have hl1 := hl.trans_le hN.ordered.1
  have hl2 := hl1.trans_le hN.ordered.2
  have hl02 := hN.ordered.1.trans hN.ordered.2
  have hθ0 : 0 ≤ θ := by
    by_contra h
    push Not at h
    have := mul_nonneg hδ0 hl2.le
    nlinarith
  have hδθ : δ ≤ θ := by
    have : δ * l.val 2 ≤ θ * l.val 2 := hθ.trans (mul_le_mul_of_nonneg_left hl02 hθ0)
    exact le_of_mul_le_mul_right this hl2
  obtain ⟨n0, -, n2⟩ := eigenvalues_near hN hT hall
  have n0' := (abs_le.1 n0).1
  have n2' := abs_le.1 n2
  have he0' : (1 - θ) * l.val 0 ≤ e.val 0 := by linarith
  have he0 : 0 < e.val 0 := lt_of_lt_of_le (mul_pos (by linarith) hl) he0'
  have hdd := dot_nonneg'
  have hfN : ∀ v, l.val 0 * dot v v ≤ form N v := fun v => (form_le hN v).1
  have hrel : ∀ v, |form T v - form N v| ≤ θ * form N v := by
    intro v
    refine (hall v).trans ((mul_le_mul_of_nonneg_right hθ (hdd v)).trans ?_)
    rw [mul_assoc]
    exact mul_le_mul_of_nonneg_left (hfN v) hθ0
  have hup : e.val 2 ≤ (1 + θ) * l.val 2 := by
    have := mul_le_mul_of_nonneg_right hδθ hl2.le
    linarith
  have hlo : (1 - θ) * l.val 2 ≤ e.val 2 := by
    have := mul_le_mul_of_nonneg_right hδθ hl2.le
    linarith
  refine ⟨he0, ?_, fun w => ⟨?_, ?_⟩⟩
  · have h1 : 10 * e.val 2 * l.val 0 ≤ 10 * ((1 + θ) * l.val 2) * l.val 0 :=
      mul_le_mul_of_nonneg_right (by linarith) hl.le
    have h2 : 12 * (l.val 2 * ((1 - θ) * l.val 0)) ≤ 12 * (l.val 2 * e.val 0) := by
      have := mul_le_mul_of_nonneg_left he0' hl2.le
      linarith
    have h3 := mul_pos hl2 hl
    nlinarith
  · have h1 := inverseForm_le hN hT hl he0 (k := (1 + θ)⁻¹) (by positivity) (fun v => by
      have := (abs_le.1 (hrel v)).2
      rw [inv_mul_le_iff₀ (by linarith)]
      linarith) w
    rw [inv_mul_le_iff₀ (by linarith)] at h1
    have hI := inverseForm_nonneg hT he0 w
    have hJ := inverseForm_nonneg hN hl w
    -- (1 - 2θ) (1 + θ) ≤ 1 - θ
    have h2 : (1 - 2 * θ) * (l.val 2 * inverseForm l w) ≤ (1 - 2 * θ) * (l.val 2 * ((1 + θ) * inverseForm e w)) :=
      mul_le_mul_of_nonneg_left (mul_le_mul_of_nonneg_left h1 hl2.le) (by linarith)
    have h3 := mul_le_mul_of_nonneg_right hlo hI
    have h4 := mul_nonneg hl2.le hI
    nlinarith [mul_nonneg (sq_nonneg θ) h4]
  · have h1 := inverseForm_le hT hN he0 hl (k := 1 - θ) (by linarith) (fun v => by
      have := (abs_le.1 (hrel v)).1
      linarith) w
    have hI := inverseForm_nonneg hT he0 w
    have hJ := inverseForm_nonneg hN hl w
    have h3 := mul_le_mul_of_nonneg_right hup hI
    have h4 := mul_nonneg hl2.le hI
    have h5 := mul_le_mul_of_nonneg_left h1 hl2.le
    have h6 := mul_le_mul_of_nonneg_left h5 (show 0 ≤ 1 + 3 * θ by linarith)
    have h7 : 0 ≤ θ * (1 - 3 * θ) := mul_nonneg hθ0 (by linarith)
    nlinarith [mul_nonneg h7 h4]

/-- Coordinates with an error, and weights. -/
theorem squares_near {h Z : ℝ} (hh : 0 ≤ h) {x y K : Fin 3 → ℝ} (hK : ∀ k, 0 < K k)
    (hd : ∀ k, (y k - x k) ^ 2 * K k ≤ h ^ 2 * Z) (hZ0 : 0 ≤ Z) (hZ : Z ≤ x 0 ^ 2 * K 0 + x 1 ^ 2 * K 1 + x 2 ^ 2 * K 2) :
    (1 - 4 * h) * (x 0 ^ 2 * K 0 + x 1 ^ 2 * K 1 + x 2 ^ 2 * K 2) ≤ y 0 ^ 2 * K 0 + y 1 ^ 2 * K 1 + y 2 ^ 2 * K 2 ∧
    y 0 ^ 2 * K 0 + y 1 ^ 2 * K 1 + y 2 ^ 2 * K 2 ≤ (1 + 4 * h + 3 * h ^ 2) * (x 0 ^ 2 * K 0 + x 1 ^ 2 * K 1 + x 2 ^ 2 * K 2) := by
  rcases hh.eq_or_lt with rfl | hh
  · have e : ∀ k, y k = x k := by
      intro k
      have h1 := hd k
      have h2 : (y k - x k) ^ 2 * K k = 0 := le_antisymm (by linarith) (mul_nonneg (sq_nonneg _) (hK k).le)
      have h3 := (mul_eq_zero.1 h2).resolve_right (hK k).ne'
      exact sub_eq_zero.1 (pow_eq_zero_iff (two_ne_zero)|>.1 h3)
    rw [e 0, e 1, e 2]
    constructor <;> linarith
  · have lo : ∀ k, (1 - h) * (x k ^ 2 * K k) - h * Z ≤ y k ^ 2 * K k := by
      intro k
      have h1 : y k ^ 2 = (1 - h) * x k ^ 2 - (y k - x k) ^ 2 / h + (y k - x k) ^ 2 + h⁻¹ * (h * x k + (y k - x k)) ^ 2 := by
        field_simp
        ring
      have h2 : (1 - h) * x k ^ 2 - (y k - x k) ^ 2 / h ≤ y k ^ 2 := by
        have : 0 ≤ (y k - x k) ^ 2 + h⁻¹ * (h * x k + (y k - x k)) ^ 2 := by positivity
        linarith
      have h3 := mul_le_mul_of_nonneg_right h2 (hK k).le
      have h4 : (y k - x k) ^ 2 / h * K k ≤ h * Z := by
        rw [div_mul_eq_mul_div, div_le_iff₀ hh]
        linarith [hd k]
      linarith
    have up : ∀ k, y k ^ 2 * K k ≤ (1 + h) * (x k ^ 2 * K k) + (h + h ^ 2) * Z := by
      intro k
      have h1 : y k ^ 2 = (1 + h) * x k ^ 2 + (y k - x k) ^ 2 / h + (y k - x k) ^ 2 - h⁻¹ * (h * x k - (y k - x k)) ^ 2 := by
        field_simp
        ring
      have h2 : y k ^ 2 ≤ (1 + h) * x k ^ 2 + (y k - x k) ^ 2 / h + (y k - x k) ^ 2 := by
        have : 0 ≤ h⁻¹ * (h * x k - (y k - x k)) ^ 2 := by positivity
        linarith
      have h3 := mul_le_mul_of_nonneg_right h2 (hK k).le
      have h4 : (y k - x k) ^ 2 / h * K k ≤ h * Z := by
        rw [div_mul_eq_mul_div, div_le_iff₀ hh]
        linarith [hd k]
      linarith [hd k]
    have hz := mul_le_mul_of_nonneg_left hZ hh.le
    have hz2 := mul_le_mul_of_nonneg_left hZ (sq_nonneg h)
    constructor
    · linarith [lo 0, lo 1, lo 2]
    · linarith [up 0, up 1, up 2]

variable {R : Rounding}

/-- A computed coordinate along a computed axis. -/
theorem along_near (cfg : Config) {v a : Vec ℝ} (hv : v ≠ 0) (ha : ∀ i, Rel R 5 (a i) (v i / √(dot v v))) (hu : 9 * R.u ≤ 1 / 2) (p : Pt) :
    (along R cfg a p - dot (fun i => v i / √(dot v v)) (rel cfg p)) ^ 2 ≤ (18 * R.u) ^ 2 * dot (rel cfg p) (rel cfg p) := by
  have hd := dot_self_pos hv
  set n : Vec ℝ := fun i => v i / √(dot v v) with hn
  have hn1 : dot n n = 1 := by
    have : dot n n = dot v v / (√(dot v v) * √(dot v v)) := by
      rw [hn]
      generalize √(dot v v) = r
      unfold dot
      ring
    rw [this, Real.mul_self_sqrt hd.le, div_self hd.ne']
  have hu0 := R.u_nonneg
  have hm : ∀ i, Rel R 7 (R.mul (a i) (R.sub (p.x i) (cfg.center i))) (n i * rel cfg p i) := fun i =>
    rel_round ((ha i).mul (rel_rnd R (p.x i - cfg.center i)))
  obtain ⟨t0, e0, l0, u0⟩ := hm 0
  obtain ⟨t1, e1, l1, u1⟩ := hm 1
  have hm2 := hm 2
  have h9 : ∀ {y x : ℝ}, Rel R 9 y x → |y - x| ≤ 18 * R.u * |x| := by
    intro y x h
    have := h.err' (by norm_num; linarith)
    refine this.trans (le_of_eq ?_)
    push_cast
    ring
  have hs : |along R cfg a p - dot n (rel cfg p)| ≤ 18 * R.u * (|n 0| * |rel cfg p 0| + |n 1| * |rel cfg p 1| + |n 2| * |rel cfg p 2|) := by
    unfold along
    have hm0 := hm 0
    have hm1 := hm 1
    set m0 := R.mul (a 0) (R.sub (p.x 0) (cfg.center 0))
    set m1 := R.mul (a 1) (R.sub (p.x 1) (cfg.center 1))
    set m2 := R.mul (a 2) (R.sub (p.x 2) (cfg.center 2))
    obtain ⟨s, es, ls, us⟩ := rel_rnd R (m0 + m1)
    obtain ⟨s', es', ls', us'⟩ := rel_rnd R (R.add m0 m1 + m2)
    have r1 : ∀ y : ℝ, Rel R 1 (y * s) y := fun y => ⟨s, rfl, ls, us⟩
    have r2 : ∀ y : ℝ, Rel R 1 (y * s') y := fun y => ⟨s', rfl, ls', us'⟩
    have k0 := h9 ((r2 (m0 * s)).trans ((r1 m0).trans hm0))
    have k1 := h9 ((r2 (m1 * s)).trans ((r1 m1).trans hm1))
    have k2 := h9 (((r2 m2).trans hm2).mono (by norm_num))
    have e : R.add (R.add m0 m1) m2 = m0 * s * s' + m1 * s * s' + m2 * s' := by
      show R.rnd (R.add m0 m1 + m2) = _
      rw [es']
      show (R.rnd (m0 + m1) + m2) * s' = _
      rw [es]
      ring
    rw [abs_mul] at k0 k1 k2
    rw [e]
    have e2 : m0 * s * s' + m1 * s * s' + m2 * s' - dot n (rel cfg p) =
        (m0 * s * s' - n 0 * rel cfg p 0) + (m1 * s * s' - n 1 * rel cfg p 1) + (m2 * s' - n 2 * rel cfg p 2) := by
      unfold dot
      ring
    rw [e2]
    refine (abs_add_three _ _ _).trans ?_
    linarith
  have hsq := pow_le_pow_left₀ (abs_nonneg _) hs 2
  rw [sq_abs, mul_pow] at hsq
  refine hsq.trans (mul_le_mul_of_nonneg_left ?_ (sq_nonneg _))
  have hc := cauchy3 (n 0) (n 1) (n 2) (rel cfg p 0) (rel cfg p 1) (rel cfg p 2)
  have e : n 0 * n 0 + n 1 * n 1 + n 2 * n 2 = 1 := hn1
  rw [e, one_mul] at hc
  exact hc

theorem rootRatio_rel {a b x : ℝ} (ha : 0 < a) (hb : 0 < b) (h : rootRatio R a b = some x) : Rel R 3 (x ^ 2) (a / b) ∧ 0 < x := by
  unfold rootRatio at h
  rw [if_neg hb.ne'] at h
  split at h
  · cases h
  · obtain rfl := Option.some.inj h
    have hpos : 0 < R.div a b := rnd_pos R (div_pos ha hb)
    have h2 := (rel_rnd R √(R.div a b)).pow 2
    rw [Real.sq_sqrt hpos.le] at h2
    exact ⟨h2.trans (rel_rnd R _), rnd_pos R (Real.sqrt_pos.2 hpos)⟩

theorem unit_eq (e : Eigen) (k : Fin 3) : unit e.vec k = fun i => e.vec k i / √(dot (e.vec k) (e.vec k)) := by
  funext i
  unfold unit
  rw [div_eq_mul_inv, mul_comm]

theorem product_up {Θ u h θ E E' Y r : ℝ} (h1 : Θ ≤ 1 / 10) (hu0 : 0 ≤ u) (hu : 576 * u ≤ Θ) (hh : h = Θ / 20) (hθ0 : 0 ≤ θ) (hθ : 12 * θ ≤ Θ) (hE : 0 ≤ E)
    (a : E' ≤ (1 + 3 * θ) * E) (b : Y ≤ (1 + 4 * h + 3 * h ^ 2) * E') (c : r ≤ (1 + 16 * u) * Y) : r ≤ (1 + Θ / 2) * E := by
  have hΘ : 0 ≤ Θ := by linarith
  have a' : E' ≤ (1 + Θ / 4) * E := a.trans (mul_le_mul_of_nonneg_right (by linarith) hE)
  have b' : Y ≤ (1 + Θ / 5 + 3 * Θ ^ 2 / 400) * ((1 + Θ / 4) * E) := by
    refine b.trans ?_
    rw [hh]
    have : 1 + 4 * (Θ / 20) + 3 * (Θ / 20) ^ 2 = 1 + Θ / 5 + 3 * Θ ^ 2 / 400 := by ring
    rw [this]
    exact mul_le_mul_of_nonneg_left a' (by positivity)
  have c' : r ≤ (1 + Θ / 36) * ((1 + Θ / 5 + 3 * Θ ^ 2 / 400) * ((1 + Θ / 4) * E)) := by
    refine c.trans ((mul_le_mul_of_nonneg_left b' (by positivity)).trans ?_)
    exact mul_le_mul_of_nonneg_right (by linarith) (by positivity)
  refine c'.trans ?_
  have key : (1 + Θ / 36) * ((1 + Θ / 5 + 3 * Θ ^ 2 / 400) * (1 + Θ / 4)) ≤ 1 + Θ / 2 := by
    have h2 : Θ ^ 2 ≤ Θ / 10 := by nlinarith
    have h3 : Θ ^ 3 ≤ Θ / 100 := by nlinarith [mul_le_mul_of_nonneg_left h2 hΘ]
    have h4 : Θ ^ 4 ≤ Θ / 1000 := by nlinarith [mul_le_mul_of_nonneg_left h3 hΘ]
    linarith
  calc _ = (1 + Θ / 36) * ((1 + Θ / 5 + 3 * Θ ^ 2 / 400) * (1 + Θ / 4)) * E := by ring
    _ ≤ _ := mul_le_mul_of_nonneg_right key hE

theorem product_lo {Θ u h θ E E' Y r : ℝ} (h1 : Θ ≤ 1 / 10) (hu0 : 0 ≤ u) (hu : 576 * u ≤ Θ) (hh : h = Θ / 20) (hθ0 : 0 ≤ θ) (hθ : 12 * θ ≤ Θ) (hE : 0 ≤ E)
    (a : (1 - 2 * θ) * E ≤ E') (b : (1 - 4 * h) * E' ≤ Y) (c : (1 - 16 * u) * Y ≤ r) : (1 - Θ / 2) * E ≤ r := by
  have hΘ : 0 ≤ Θ := by linarith
  have a' : (1 - Θ / 6) * E ≤ E' := (mul_le_mul_of_nonneg_right (by linarith) hE).trans a
  have hE' : 0 ≤ E' := (mul_nonneg (by linarith) hE).trans a'
  have b' : (1 - Θ / 5) * ((1 - Θ / 6) * E) ≤ Y := by
    refine le_trans ?_ b
    rw [hh]
    have : 1 - 4 * (Θ / 20) = 1 - Θ / 5 := by ring
    rw [this]
    exact mul_le_mul_of_nonneg_left a' (by linarith)
  have hY : 0 ≤ Y := le_trans (mul_nonneg (by linarith) (mul_nonneg (by linarith) hE)) b'
  have c' : (1 - Θ / 36) * ((1 - Θ / 5) * ((1 - Θ / 6) * E)) ≤ r := by
    refine le_trans ?_ c
    exact (mul_le_mul_of_nonneg_left b' (by linarith)).trans (mul_le_mul_of_nonneg_right (by linarith) hY)
  refine le_trans ?_ c'
  have key : 1 - Θ / 2 ≤ (1 - Θ / 36) * ((1 - Θ / 5) * (1 - Θ / 6)) := by
    have h3 : Θ ^ 3 ≤ Θ / 100 := by
      have h2 : Θ ^ 2 ≤ Θ / 10 := by nlinarith
      nlinarith [mul_le_mul_of_nonneg_left h2 hΘ]
    nlinarith [sq_nonneg Θ]
  calc _ ≤ (1 - Θ / 36) * ((1 - Θ / 5) * (1 - Θ / 6)) * E := mul_le_mul_of_nonneg_right key hE
    _ = _ := by ring

/-- The exact ellipsoidal radius in terms of the inverse. -/
theorem ellipsoidal2_inverse {a b c : ℝ} {x y z : Vec ℝ} (ha : 0 < a) (hb : 0 < b) (hc : 0 < c) (ho : Orthonormal x y z) {k : ℝ} (hk : 0 < k) (w : Vec ℝ) :
    a ^ 2 / k * inverseForm ⟨fun i => ![c ^ 2, b ^ 2, a ^ 2] i / k, ![z, y, x]⟩ w = ellipsoidal2 x y z (b / a) (c / a) w := by
  obtain ⟨nx, ny, nz, -⟩ := ho
  have hun : ∀ v : Fin 3 → Vec ℝ, ∀ j, dot (v j) (v j) = 1 → unit v j = v j := by
    intro v j h
    funext i
    unfold unit
    rw [h, Real.sqrt_one, inv_one, one_mul]
  have h0 : unit ![z, y, x] 0 = z := hun _ 0 nz
  have h1 : unit ![z, y, x] 1 = y := hun _ 1 ny
  have h2 : unit ![z, y, x] 2 = x := hun _ 2 nx
  unfold inverseForm ellipsoidal2
  simp only [h0, h1, h2]
  have e0 : (![c ^ 2, b ^ 2, a ^ 2] : Fin 3 → ℝ) 0 = c ^ 2 := rfl
  have e1 : (![c ^ 2, b ^ 2, a ^ 2] : Fin 3 → ℝ) 1 = b ^ 2 := rfl
  have e2 : (![c ^ 2, b ^ 2, a ^ 2] : Fin 3 → ℝ) 2 = a ^ 2 := rfl
  rw [e0, e1, e2]
  field_simp
  ring

/-- The computed ellipsoidal radius of a particle. -/
theorem radius_near (cfg : Config) {t : Tensor} {a b c : ℝ} {x y z : Vec ℝ} (hp : Principal t a b c x y z) {e : Eigen} {T' : Tensor} {mt δ Θ : ℝ}
    (hT : IsEigen T' e) (hmt : 0 < mt) (hδ0 : 0 ≤ δ) (hall : ∀ v, |form T' v - form t v / mt| ≤ δ * (a ^ 2 / mt) * dot v v)
    (hΘ1 : Θ ≤ 1 / 10) (hδ : 12 * δ ≤ Θ * (c / a) ^ 2) (hu : 576 * R.u ≤ Θ * (c / a) ^ 2) {q s : ℝ} {major inter minor : Vec ℝ}
    (hq : rootRatio R (e.val 1) (e.val 2) = some q) (hs : rootRatio R (e.val 0) (e.val 2) = some s)
    (r2 : ∀ i, Rel R 5 (major i) (e.vec 2 i / √(dot (e.vec 2) (e.vec 2)))) (r1 : ∀ i, Rel R 5 (inter i) (e.vec 1 i / √(dot (e.vec 1) (e.vec 1))))
    (r0 : ∀ i, Rel R 5 (minor i) (e.vec 0 i / √(dot (e.vec 0) (e.vec 0)))) (p : Pt) :
    ∃ r, ellNorm2 R q s ![along R cfg major p, along R cfg inter p, along R cfg minor p] = some r ∧
      (1 - Θ / 2) * ellipsoidal2 x y z (b / a) (c / a) (rel cfg p) ≤ r ∧ r ≤ (1 + Θ / 2) * ellipsoidal2 x y z (b / a) (c / a) (rel cfg p) := by
  have hc := hp.pos
  have hb : 0 < b := hc.trans_le hp.cb
  have ha : 0 < a := hb.trans_le hp.ba
  have hu0 := R.u_nonneg
  have hσ : 0 < c / a := div_pos hc ha
  have hσ1 : c / a ≤ 1 := (div_le_one ha).2 (hp.cb.trans hp.ba)
  have hσp : 0 < (c / a) ^ 2 := by positivity
  have hσ2 : (c / a) ^ 2 ≤ 1 := pow_le_one₀ hσ.le hσ1
  have hΘ0 : 0 ≤ Θ := by
    by_contra h
    push Not at h
    nlinarith
  have huΘ : 576 * R.u ≤ Θ := hu.trans (mul_le_of_le_one_right hΘ0 hσ2)
  -- the exact tensor
  set N : Tensor := fun i j => t i j / mt with hNd
  have hl := principal_eigen hp
  set l : Eigen := ⟨fun i => ![c ^ 2, b ^ 2, a ^ 2] i / mt, ![z, y, x]⟩ with hld
  have hN : IsEigen N l :=
    ⟨⟨div_le_div_of_nonneg_right hl.ordered.1 hmt.le, div_le_div_of_nonneg_right hl.ordered.2 hmt.le⟩, fun k i => by
      have := hl.eigen k i
      simp only [hNd, hld]
      simp only at this
      linear_combination mt⁻¹ * this, hl.orth, hl.nonzero⟩
  have hform : ∀ v, form N v = form t v / mt := by
    intro v
    simp only [form, dot, hNd]
    ring
  have v0 : l.val 0 = c ^ 2 / mt := rfl
  have v2 : l.val 2 = a ^ 2 / mt := rfl
  set θ := δ / (c / a) ^ 2 with hθd
  have hθ0 : 0 ≤ θ := div_nonneg hδ0 hσp.le
  have hθ : 12 * θ ≤ Θ := by
    rw [hθd, ← mul_div_assoc, div_le_iff₀ hσp]
    exact hδ
  have hl0 : 0 < l.val 0 := by rw [v0]; positivity
  have hθe : δ * l.val 2 ≤ θ * l.val 0 := by
    rw [v0, v2, hθd]
    apply le_of_eq
    field_simp
  obtain ⟨he0, hK, hE⟩ := radii_near hN hT hl0 hδ0 hθe (by linarith) (fun v => by rw [hform, v2]; exact hall v)
  have he1 := he0.trans_le hT.ordered.1
  have he2 := he1.trans_le hT.ordered.2
  obtain ⟨hE1, hE2⟩ := hE (rel cfg p)
  have hell := ellipsoidal2_inverse ha hb hc hp.axes hmt (rel cfg p)
  rw [← hld, ← v2] at hell
  rw [hell] at hE1 hE2
  have hE0 : 0 ≤ ellipsoidal2 x y z (b / a) (c / a) (rel cfg p) := by unfold ellipsoidal2; positivity
  set E := ellipsoidal2 x y z (b / a) (c / a) (rel cfg p) with hEd
  -- the computed ratios
  obtain ⟨rq, hq0⟩ := rootRatio_rel he1 he2 hq
  obtain ⟨rs, hs0⟩ := rootRatio_rel he0 he2 hs
  obtain ⟨r, hr, hrel⟩ := ellNorm2_rel R hq0.ne' hs0.ne' ![along R cfg major p, along R cfg inter p, along R cfg minor p]
  refine ⟨r, hr, ?_⟩
  set Y : Fin 3 → ℝ := ![along R cfg minor p, along R cfg inter p, along R cfg major p] with hY
  set X : Fin 3 → ℝ := fun k => dot (unit e.vec k) (rel cfg p) with hX
  set K : Fin 3 → ℝ := fun k => e.val 2 / e.val k with hKd
  change Rel R 5 r (Y 2 ^ 2 + Y 1 ^ 2 / q ^ 2 + Y 0 ^ 2 / s ^ 2) at hrel
  have hval : ∀ k, 0 < e.val k := by intro k; fin_cases k; exacts [he0, he1, he2]
  have hv0 : ∀ k, e.val 0 ≤ e.val k := by
    intro k; fin_cases k; exacts [le_refl _, hT.ordered.1, hT.ordered.1.trans hT.ordered.2]
  have hv2 : ∀ k, e.val k ≤ e.val 2 := by
    intro k; fin_cases k; exacts [hT.ordered.1.trans hT.ordered.2, hT.ordered.2, le_refl _]
  have hKp : ∀ k, 0 < K k := fun k => div_pos he2 (hval k)
  have hK1 : ∀ k, 1 ≤ K k := fun k => (one_le_div (hval k)).2 (hv2 k)
  have hX' : X 0 ^ 2 * K 0 + X 1 ^ 2 * K 1 + X 2 ^ 2 * K 2 = e.val 2 * inverseForm e (rel cfg p) := by
    simp only [hX, hKd, inverseForm]
    ring
  have hrY : Rel R 8 r (Y 0 ^ 2 * K 0 + Y 1 ^ 2 * K 1 + Y 2 ^ 2 * K 2) := by
    have k1 : Rel R 3 (Y 1 ^ 2 / q ^ 2) (Y 1 ^ 2 * K 1) := by
      have := (Rel.refl R 0 (Y 1 ^ 2)).div rq
      have e1 : Y 1 ^ 2 / (e.val 1 / e.val 2) = Y 1 ^ 2 * K 1 := by simp only [hKd]; field_simp
      rw [e1] at this
      exact this.mono (by norm_num)
    have k0 : Rel R 3 (Y 0 ^ 2 / s ^ 2) (Y 0 ^ 2 * K 0) := by
      have := (Rel.refl R 0 (Y 0 ^ 2)).div rs
      have e1 : Y 0 ^ 2 / (e.val 0 / e.val 2) = Y 0 ^ 2 * K 0 := by simp only [hKd]; field_simp
      rw [e1] at this
      exact this.mono (by norm_num)
    have k2 : Rel R 3 (Y 2 ^ 2) (Y 2 ^ 2 * K 2) := by
      have e1 : Y 2 ^ 2 * K 2 = Y 2 ^ 2 := by simp only [hKd]; field_simp
      rw [e1]
      exact Rel.refl R 3 _
    have n0 := mul_nonneg (sq_nonneg (Y 0)) (hKp 0).le
    have n1 := mul_nonneg (sq_nonneg (Y 1)) (hKp 1).le
    have n2 := mul_nonneg (sq_nonneg (Y 2)) (hKp 2).le
    have k := hrel.trans ((k2.add k1 n2 n1).add k0 (add_nonneg n2 n1) n0)
    have e1 : Y 0 ^ 2 * K 0 + Y 1 ^ 2 * K 1 + Y 2 ^ 2 * K 2 = Y 2 ^ 2 * K 2 + Y 1 ^ 2 * K 1 + Y 0 ^ 2 * K 0 := by ring
    rw [e1]
    exact k
  -- the computed coordinates
  have hu9 : 9 * R.u ≤ 1 / 2 := by linarith
  set Z := dot (rel cfg p) (rel cfg p) with hZd
  have hZ0 : 0 ≤ Z := dot_nonneg' _
  have hdY : ∀ k, (Y k - X k) ^ 2 ≤ (18 * R.u) ^ 2 * Z := by
    intro k
    have a0 := along_near cfg (hT.nonzero 0) r0 hu9 p
    have a1 := along_near cfg (hT.nonzero 1) r1 hu9 p
    have a2 := along_near cfg (hT.nonzero 2) r2 hu9 p
    rw [← unit_eq] at a0 a1 a2
    fin_cases k
    exacts [a0, a1, a2]
  have hfr := unit_frame hT.orth hT.nonzero
  have hZX : Z ≤ X 0 ^ 2 * K 0 + X 1 ^ 2 * K 1 + X 2 ^ 2 * K 2 := by
    rw [hZd, ← frame_norm hfr]
    have g : ∀ k, X k ^ 2 ≤ X k ^ 2 * K k := fun k => le_mul_of_one_le_right (sq_nonneg _) (hK1 k)
    exact add_le_add (add_le_add (g 0) (g 1)) (g 2)
  have hdK : ∀ k, (Y k - X k) ^ 2 * K k ≤ (Θ / 20) ^ 2 * Z := by
    intro k
    have h1 : K k * (c / a) ^ 2 ≤ 6 / 5 := by
      have h2 : K k ≤ e.val 2 / e.val 0 := div_le_div_of_nonneg_left he2.le he0 (hv0 k)
      have h3 : e.val 2 / e.val 0 * (c / a) ^ 2 ≤ 6 / 5 := by
        rw [v0, v2] at hK
        have h4 : 10 * (e.val 2 * c ^ 2) ≤ 12 * (a ^ 2 * e.val 0) := by
          have h5 := mul_le_mul_of_nonneg_right hK hmt.le
          have e1 : 10 * e.val 2 * (c ^ 2 / mt) * mt = 10 * (e.val 2 * c ^ 2) := by field_simp
          have e2 : 12 * (a ^ 2 / mt * e.val 0) * mt = 12 * (a ^ 2 * e.val 0) := by field_simp
          rw [e1, e2] at h5
          exact h5
        rw [div_pow, div_mul_div_comm, div_le_iff₀ (by positivity)]
        linarith
      exact (mul_le_mul_of_nonneg_right h2 hσp.le).trans h3
    have h2 : (18 * R.u) ^ 2 * K k ≤ (Θ / 20) ^ 2 := by
      have h3 : R.u ≤ Θ * (c / a) ^ 2 / 576 := by linarith
      have h4 : (18 * R.u) ^ 2 ≤ (Θ * (c / a) ^ 2 / 32) ^ 2 := pow_le_pow_left₀ (by positivity) (by linarith) 2
      have h5 := mul_le_mul_of_nonneg_right h4 (hKp k).le
      have e1 : (Θ * (c / a) ^ 2 / 32) ^ 2 * K k = Θ ^ 2 / 1024 * ((c / a) ^ 2 * (K k * (c / a) ^ 2)) := by ring
      rw [e1] at h5
      have h6 : (c / a) ^ 2 * (K k * (c / a) ^ 2) ≤ 1 * (6 / 5) :=
        mul_le_mul hσ2 h1 (mul_nonneg (hKp k).le hσp.le) zero_le_one
      have h7 := mul_le_mul_of_nonneg_left h6 (show 0 ≤ Θ ^ 2 / 1024 by positivity)
      have h8 := sq_nonneg Θ
      linarith
    calc (Y k - X k) ^ 2 * K k ≤ (18 * R.u) ^ 2 * Z * K k := mul_le_mul_of_nonneg_right (hdY k) (hKp k).le
      _ = (18 * R.u) ^ 2 * K k * Z := by ring
      _ ≤ _ := mul_le_mul_of_nonneg_right h2 hZ0
  obtain ⟨y1, y2⟩ := squares_near (show 0 ≤ Θ / 20 by linarith) hKp hdK hZ0 hZX
  rw [hX'] at y1 y2
  have hYn : 0 ≤ Y 0 ^ 2 * K 0 + Y 1 ^ 2 * K 1 + Y 2 ^ 2 * K 2 := by
    have := hKp 0
    have := hKp 1
    have := hKp 2
    positivity
  have herr := hrY.err' (by norm_num; linarith)
  rw [abs_of_nonneg hYn] at herr
  push_cast at herr
  have herr' := abs_le.1 herr
  exact ⟨product_lo hΘ1 hu0 huΘ rfl hθ0 hθ hE0 hE1 y1 (by linarith), product_up hΘ1 hu0 huΘ rfl hθ0 hθ hE0 hE2 y2 (by linarith)⟩

/-- The computed test agrees with the exact one for particles which are not at the edge. -/
theorem test_clear {Θ E r : ℝ} (d : ℝ) (hΘ1 : Θ ≤ 1 / 10) (hu : 576 * R.u ≤ Θ) (hE : 0 ≤ E) (h1 : (1 - Θ / 2) * E ≤ r) (h2 : r ≤ (1 + Θ / 2) * E)
    (h : E < (1 - Θ) * d ^ 2 ∨ (1 + Θ) * d ^ 2 < E) : r < R.pow d 2 ↔ E < d ^ 2 := by
  have hu0 := R.u_nonneg
  have hd : 0 ≤ d ^ 2 := sq_nonneg d
  have hΘ0 : 0 ≤ Θ := by linarith
  have herr := (rel_rnd R (d ^ 2)).err' (by norm_num; linarith)
  rw [abs_of_nonneg hd] at herr
  push_cast at herr
  have herr' := abs_le.1 herr
  change _ ≤ R.pow d 2 - _ ∧ R.pow d 2 - _ ≤ _ at herr'
  have hud : 576 * R.u * d ^ 2 ≤ Θ * d ^ 2 := mul_le_mul_of_nonneg_right hu hd
  have hΘd : 0 ≤ Θ * d ^ 2 := mul_nonneg hΘ0 hd
  have hΘ2 : Θ * (Θ * d ^ 2) ≤ 1 / 10 * (Θ * d ^ 2) := mul_le_mul_of_nonneg_right hΘ1 hΘd
  rcases h with h | h
  · refine iff_of_true ?_ (by linarith)
    have h3 : (1 + Θ / 2) * E < (1 + Θ / 2) * ((1 - Θ) * d ^ 2) := mul_lt_mul_of_pos_left h (by linarith)
    nlinarith [mul_nonneg hΘ0 hΘd]
  · refine iff_of_false ?_ (by linarith)
    have h3 : (1 - Θ / 2) * ((1 + Θ) * d ^ 2) < (1 - Θ / 2) * E := mul_lt_mul_of_pos_left h (by linarith)
    have : R.pow d 2 ≤ r := by nlinarith
    linarith

end Verif.Round
