import Verif.Round.TrueCentre

/-!
# Shapes of objects which are nearly ellipsoidal

If the second moments of all particles are close to those of an ellipsoid and all particles are inside a slightly larger one, the iteration of
Katz (Shapes/Model.lean, shape_profs_algos.pyx:148-261) keeps all particles and finds nearly the axis ratios of the ellipsoid. Used for random
samples (C176).
-/

namespace Verif.Shapes

open Verif.Round (form form_le form_vec principal_exists principal_form principal_vals principal_eigen ratios_near)
open Verif (Vec)

/-- Quadratic form of an ellipsoid with semi-axes `α` along the coordinate axes. -/
def stretchForm (α v : Vec ℝ) : ℝ := (α 0 * v 0) ^ 2 + (α 1 * v 1) ^ 2 + (α 2 * v 2) ^ 2

/-- The square of the ellipsoidal radius of `v`, in units of the semi-axes. -/
noncomputable def depth (α v : Vec ℝ) : ℝ := (v 0 / α 0) ^ 2 + (v 1 / α 1) ^ 2 + (v 2 / α 2) ^ 2

theorem depth_nonneg (α v : Vec ℝ) : 0 ≤ depth α v := by unfold depth; positivity

/-- The tensor whose form is `κ * stretchForm α`. -/
noncomputable def diagonal (κ : ℝ) (α : Vec ℝ) : Tensor := fun i j => if i = j then κ * α i ^ 2 else 0

theorem form_diagonal (κ : ℝ) (α v : Vec ℝ) : form (diagonal κ α) v = κ * stretchForm α v := by
  have h01 : (0 : Fin 3) ≠ 1 := by decide
  have h02 : (0 : Fin 3) ≠ 2 := by decide
  have h12 : (1 : Fin 3) ≠ 2 := by decide
  unfold form dot diagonal stretchForm
  simp only [h01, h02, h12, h01.symm, h02.symm, h12.symm, if_true, if_false]
  ring

theorem diagonal_eigen {κ : ℝ} (hκ : 0 < κ) {α : Vec ℝ} (h2 : 0 < α 2) (h21 : α 2 ≤ α 1) (h10 : α 1 ≤ α 0) :
    IsEigen (diagonal κ α) ⟨![κ * α 2 ^ 2, κ * α 1 ^ 2, κ * α 0 ^ 2], ![![0, 0, 1], ![0, 1, 0], ![1, 0, 0]]⟩ := by
  have h1 : 0 < α 1 := h2.trans_le h21
  refine ⟨⟨mul_le_mul_of_nonneg_left (pow_le_pow_left₀ h2.le h21 2) hκ.le, mul_le_mul_of_nonneg_left (pow_le_pow_left₀ h1.le h10 2) hκ.le⟩, ?_, ?_, ?_⟩
  · intro k i
    fin_cases k <;> fin_cases i <;> simp [diagonal]
  · intro k l hkl
    fin_cases k <;> fin_cases l <;> simp_all [dot]
  · intro k h
    have e0 := congrFun h 0
    have e1 := congrFun h 1
    have e2 := congrFun h 2
    fin_cases k <;> simp at e0 e1 e2

/-- The ellipsoidal radius with respect to the principal axes of a tensor which is at least `k * stretchForm α`. -/
theorem inverse_le {t : Tensor} {A B C : ℝ} {x y z : Vec ℝ} (hp : Principal t A B C x y z) {k : ℝ} (hk : 0 < k) {α : Vec ℝ}
    (hα : ∀ i, 0 < α i) (hf : ∀ v, k * stretchForm α v ≤ form t v) (w : Vec ℝ) :
    dot x w ^ 2 / A ^ 2 + dot y w ^ 2 / B ^ 2 + dot z w ^ 2 / C ^ 2 ≤ depth α w / k := by
  have hC := hp.pos
  have hB : 0 < B := hC.trans_le hp.cb
  have hA : 0 < A := hB.trans_le hp.ba
  obtain ⟨nx, ny, nz, oxy, oxz, oyz⟩ := hp.axes
  set p := dot x w / A ^ 2 with hpd
  set q := dot y w / B ^ 2 with hqd
  set r := dot z w / C ^ 2 with hrd
  have ep : dot x w = p * A ^ 2 := by rw [hpd]; field_simp
  have eq : dot y w = q * B ^ 2 := by rw [hqd]; field_simp
  have er : dot z w = r * C ^ 2 := by rw [hrd]; field_simp
  have eF : dot x w ^ 2 / A ^ 2 + dot y w ^ 2 / B ^ 2 + dot z w ^ 2 / C ^ 2 = p ^ 2 * A ^ 2 + q ^ 2 * B ^ 2 + r ^ 2 * C ^ 2 := by
    rw [ep, eq, er]; field_simp
  rw [eF]
  set u : Vec ℝ := fun i => p * x i + q * y i + r * z i with hu
  have d1 : dot u w = p ^ 2 * A ^ 2 + q ^ 2 * B ^ 2 + r ^ 2 * C ^ 2 := by
    have : dot u w = p * dot x w + q * dot y w + r * dot z w := by unfold dot; simp only [hu]; ring
    rw [this, ep, eq, er]; ring
  have d2 : form t u = p ^ 2 * A ^ 2 + q ^ 2 * B ^ 2 + r ^ 2 * C ^ 2 := by
    have hi : (fun i => t i 0 * u 0 + t i 1 * u 1 + t i 2 * u 2) = fun i => p * (A ^ 2 * x i) + q * (B ^ 2 * y i) + r * (C ^ 2 * z i) := by
      funext i
      have h1 := hp.major i
      have h2 := hp.inter i
      have h3 := hp.minor i
      simp only [hu]
      linear_combination p * h1 + q * h2 + r * h3
    unfold form
    rw [hi]
    unfold dot at nx ny nz oxy oxz oyz ⊢
    simp only [hu]
    linear_combination p ^ 2 * A ^ 2 * nx + q ^ 2 * B ^ 2 * ny + r ^ 2 * C ^ 2 * nz + p * q * (A ^ 2 + B ^ 2) * oxy +
      p * r * (A ^ 2 + C ^ 2) * oxz + q * r * (B ^ 2 + C ^ 2) * oyz
  have h := hf u
  have amgm : ∀ i, 2 * (u i * w i) - k * (α i * u i) ^ 2 ≤ (w i / α i) ^ 2 / k := by
    intro i
    have ha := hα i
    have : (w i / α i) ^ 2 / k - (2 * (u i * w i) - k * (α i * u i) ^ 2) = k * (w i / (k * α i) - α i * u i) ^ 2 := by
      field_simp
      ring
    nlinarith [mul_nonneg hk.le (sq_nonneg (w i / (k * α i) - α i * u i))]
  have a0 := amgm 0
  have a1 := amgm 1
  have a2 := amgm 2
  have e1 : depth α w / k = (w 0 / α 0) ^ 2 / k + (w 1 / α 1) ^ 2 / k + (w 2 / α 2) ^ 2 / k := by unfold depth; rw [add_div, add_div]
  rw [e1]
  have e2 : dot u w = u 0 * w 0 + u 1 * w 1 + u 2 * w 2 := rfl
  unfold stretchForm at h
  rw [mul_add, mul_add] at h
  linarith

theorem stretch_bounds {α : Vec ℝ} (h2 : 0 < α 2) (h21 : α 2 ≤ α 1) (h10 : α 1 ≤ α 0) (v : Vec ℝ) :
    α 2 ^ 2 * dot v v ≤ stretchForm α v ∧ stretchForm α v ≤ α 0 ^ 2 * dot v v ∧ dot v v ≤ α 0 ^ 2 * depth α v := by
  have h1 : 0 < α 1 := h2.trans_le h21
  have h0 : 0 < α 0 := h1.trans_le h10
  have s1 := pow_le_pow_left₀ h2.le h21 2
  have s2 := pow_le_pow_left₀ h1.le h10 2
  have e : α 0 ^ 2 * depth α v = v 0 ^ 2 + α 0 ^ 2 / α 1 ^ 2 * v 1 ^ 2 + α 0 ^ 2 / α 2 ^ 2 * v 2 ^ 2 := by
    unfold depth; field_simp
  have f1 : 1 ≤ α 0 ^ 2 / α 1 ^ 2 := (one_le_div (by positivity)).2 s2
  have f2 : 1 ≤ α 0 ^ 2 / α 2 ^ 2 := (one_le_div (by positivity)).2 (s1.trans s2)
  rw [e]
  unfold dot stretchForm
  refine ⟨?_, ?_, ?_⟩
  · nlinarith [sq_nonneg (v 0), sq_nonneg (v 1), sq_nonneg (v 2)]
  · nlinarith [sq_nonneg (v 0), sq_nonneg (v 1), sq_nonneg (v 2)]
  · nlinarith [sq_nonneg (v 0), sq_nonneg (v 1), sq_nonneg (v 2)]

/-- The second moments are those of an ellipsoid up to `ε`, and all particles are inside a slightly larger one than needed. -/
structure Nearly (cfg : Config) (α : Vec ℝ) (κ ε : ℝ) : Prop where
  plain : cfg.reduced = false
  full : cfg.deltaD = none
  pos : 0 < α 2
  minor : α 2 ≤ α 1
  inter : α 1 ≤ α 0
  scale : 0 < κ
  nonneg : 0 ≤ ε
  small : ε < 1
  moments : ∀ v, |form (wholeTensor cfg) v - κ * stretchForm α v| ≤ ε * (κ * α 2 ^ 2) * dot v v
  inside : ∀ p ∈ cfg.pts, (1 + ε) / (1 - ε) * (α 0 ^ 2 * depth α (rel cfg p)) < cfg.d ^ 2

variable {cfg : Config} {α : Vec ℝ} {κ ε : ℝ}

theorem Nearly.lower (h : Nearly cfg α κ ε) (v : Vec ℝ) : (1 - ε) * κ * stretchForm α v ≤ form (wholeTensor cfg) v := by
  have h1 := (abs_le.1 (h.moments v)).1
  have h2 := (stretch_bounds h.pos h.minor h.inter v).1
  have h3 := mul_le_mul_of_nonneg_left h2 (mul_nonneg h.nonneg h.scale.le)
  linarith

theorem Nearly.principal (h : Nearly cfg α κ ε) : ∃ A B C x y z, Principal (wholeTensor cfg) A B C x y z := by
  have hk : 0 < (1 - ε) * κ := mul_pos (sub_pos.2 h.small) h.scale
  refine principal_exists (wholeTensor_symm cfg) (k := (1 - ε) * κ * α 2 ^ 2) (mul_pos hk (pow_pos h.pos 2)) fun v => ?_
  refine le_trans ?_ (h.lower v)
  rw [mul_assoc ((1 - ε) * κ)]
  exact mul_le_mul_of_nonneg_left (stretch_bounds h.pos h.minor h.inter v).1 hk.le

theorem Nearly.largest (h : Nearly cfg α κ ε) {A B C : ℝ} {x y z : Vec ℝ} (hp : Principal (wholeTensor cfg) A B C x y z) :
    A ^ 2 ≤ (1 + ε) * κ * α 0 ^ 2 := by
  obtain ⟨e1, e2, -⟩ := principal_vals hp
  have h1 := (abs_le.1 (h.moments x)).2
  obtain ⟨s1, s2, -⟩ := stretch_bounds h.pos h.minor h.inter x
  rw [e1, e2, mul_one] at h1
  rw [e2, mul_one] at s1 s2
  have hk := h.scale.le
  have h3 := mul_le_mul_of_nonneg_left s2 hk
  have h4 := mul_le_mul_of_nonneg_left (s1.trans s2) (mul_nonneg h.nonneg hk)
  linarith

open Classical in
theorem Nearly.enclosed (h : Nearly cfg α κ ε) {A B C : ℝ} {x y z : Vec ℝ} (hp : Principal (wholeTensor cfg) A B C x y z) :
    Enclosed cfg A B C x y z := by
  have h1ε : 0 < 1 - ε := sub_pos.2 h.small
  have hk : 0 < (1 - ε) * κ := mul_pos h1ε h.scale
  have hα : ∀ i, 0 < α i := by
    intro i
    fin_cases i
    exacts [(h.pos.trans_le h.minor).trans_le h.inter, h.pos.trans_le h.minor, h.pos]
  have hfac : 1 ≤ (1 + ε) / (1 - ε) := (one_le_div h1ε).2 (by linarith [h.nonneg])
  have hC := hp.pos
  have hB : 0 < B := hC.trans_le hp.cb
  have hA : 0 < A := hB.trans_le hp.ba
  refine ⟨h.plain, h.full, hp, ?_, ?_⟩
  · unfold members
    rw [List.filter_eq_self]
    intro p hpp
    refine decide_eq_true ⟨?_, fun δ hδ => by rw [h.full] at hδ; cases hδ⟩
    have e : ellipsoidal2 sphere.major sphere.inter sphere.minor sphere.q sphere.s (rel cfg p) = dot (rel cfg p) (rel cfg p) :=
      ellipsoidal2_sphere _
    rw [e]
    have h1 := (stretch_bounds h.pos h.minor h.inter (rel cfg p)).2.2
    have h2 := h.inside p hpp
    have h3 : 0 ≤ α 0 ^ 2 * depth α (rel cfg p) := mul_nonneg (sq_nonneg _) (depth_nonneg _ _)
    nlinarith
  · intro e hP hq hs
    unfold members
    rw [List.filter_eq_self]
    intro p hpp
    refine decide_eq_true ⟨?_, fun δ hδ => by rw [h.full] at hδ; cases hδ⟩
    have h1 := inverse_le hP hk hα h.lower (rel cfg p)
    have h2 := h.largest hP
    unfold ellipsoidal2
    rw [hq, hs]
    set w := rel cfg p
    have e1 : dot e.major w ^ 2 + dot e.inter w ^ 2 / (B / A) ^ 2 + dot e.minor w ^ 2 / (C / A) ^ 2 =
        A ^ 2 * (dot e.major w ^ 2 / A ^ 2 + dot e.inter w ^ 2 / B ^ 2 + dot e.minor w ^ 2 / C ^ 2) := by field_simp
    rw [e1]
    have h4 : A ^ 2 * (dot e.major w ^ 2 / A ^ 2 + dot e.inter w ^ 2 / B ^ 2 + dot e.minor w ^ 2 / C ^ 2) ≤
        (1 + ε) * κ * α 0 ^ 2 * (depth α w / ((1 - ε) * κ)) :=
      mul_le_mul h2 h1 (by positivity) ((sq_nonneg A).trans h2)
    have e2 : (1 + ε) * κ * α 0 ^ 2 * (depth α w / ((1 - ε) * κ)) = (1 + ε) / (1 - ε) * (α 0 ^ 2 * depth α w) := by
      have := h.scale
      field_simp
    rw [e2] at h4
    exact h4.trans_lt (h.inside p hpp)

/-- The shape of such an object. -/
theorem Nearly.shape (h : Nearly cfg α κ ε) (hε : ε ≤ 1 / 2) (hsol : GoodSolver cfg.solver) (hm : ∀ p ∈ cfg.pts, 0 < p.m) (htol0 : 0 ≤ cfg.tol)
    (htol : cfg.tol < 1) (hwall : 2 ≤ cfg.wall) (hn : cfg.itMin ≤ (cfg.pts.length : Int)) (fuel : Nat) (hfuel : cfg.wall.toNat + 1 ≤ fuel)
    (morph : Morph) (sc : Scratch) (hf : Fits cfg sc) :
    ∃ m sc', runAlgo fuel cfg morph sc = some (some (m, sc')) ∧ m.d = cfg.d ∧ 0 ≤ m.q ∧ 0 ≤ m.s ∧
      |m.q ^ 2 - (α 1 / α 0) ^ 2| ≤ 12 * ε ∧ |m.s ^ 2 - (α 2 / α 0) ^ 2| ≤ 12 * ε ∧ Orthonormal m.major m.inter m.minor ∧
      (α 0 ^ 2 - α 1 ^ 2) * (1 - m.major 0 ^ 2) ≤ 2 * ε * α 2 ^ 2 ∧ (α 1 ^ 2 - α 2 ^ 2) * (1 - m.minor 2 ^ 2) ≤ 2 * ε * α 2 ^ 2 := by
  obtain ⟨A, B, C, x, y, z, hp⟩ := h.principal
  have henc := h.enclosed hp
  have hC := hp.pos
  have hB : 0 < B := hC.trans_le hp.cb
  have hA : 0 < A := hB.trans_le hp.ba
  have h2 := h.pos
  have h1 : 0 < α 1 := h2.trans_le h.minor
  have h0 : 0 < α 0 := h1.trans_le h.inter
  have hκ := h.scale
  rcases C105_outcome cfg morph sc hf hsol hm htol fuel hfuel with ⟨m, sc', hrun, hc⟩ | ⟨_, _, hc⟩ | ⟨_, hc⟩
  · obtain ⟨hq, hs, hP⟩ := henc.classified htol0 m hc
    have hd : m.d = cfg.d := by obtain ⟨-, -, -, -, -, -, -, -, rfl⟩ := hc; rfl
    have near := ratios_near (diagonal_eigen hκ h2 h.minor h.inter) (principal_eigen hP) h.nonneg hε
      (show (0 : ℝ) ≤ κ * α 2 ^ 2 by positivity) (show (0 : ℝ) < κ * α 0 ^ 2 by positivity) (by
        intro v
        rw [form_diagonal]
        refine (h.moments v).trans ?_
        have hv : 0 ≤ dot v v := by unfold dot; nlinarith [mul_self_nonneg (v 0), mul_self_nonneg (v 1), mul_self_nonneg (v 2)]
        refine mul_le_mul_of_nonneg_right (mul_le_mul_of_nonneg_left ?_ h.nonneg) hv
        exact mul_le_mul_of_nonneg_left (pow_le_pow_left₀ h2.le (h.minor.trans h.inter) 2) hκ.le)
    obtain ⟨-, n1, n0⟩ := near
    change |B ^ 2 / A ^ 2 - κ * α 1 ^ 2 / (κ * α 0 ^ 2)| ≤ 12 * ε at n1
    change |C ^ 2 / A ^ 2 - κ * α 2 ^ 2 / (κ * α 0 ^ 2)| ≤ 12 * ε at n0
    rw [mul_div_mul_left _ _ hκ.ne', ← div_pow, ← div_pow, ← hq] at n1
    rw [mul_div_mul_left _ _ hκ.ne', ← div_pow, ← div_pow, ← hs] at n0
    obtain ⟨v1, v2, v3, v4⟩ := principal_vals hP
    have pf := principal_form hP
    refine ⟨m, sc', hrun, hd, by rw [hq]; positivity, by rw [hs]; positivity, n1, n0, hP.axes, ?_, ?_⟩
    · have k1 := (pf ![1, 0, 0]).2
      have k2 := (abs_le.1 (h.moments ![1, 0, 0])).1
      have k3 := (abs_le.1 (h.moments m.major)).2
      rw [v1, v2] at k3
      have d1 : dot (![1, 0, 0] : Vec ℝ) ![1, 0, 0] = 1 := by simp [dot]
      have d2 : stretchForm α ![1, 0, 0] = α 0 ^ 2 := by simp [stretchForm]
      rw [d1] at k1 k2
      rw [d2] at k2
      have k4 : κ * (α 0 ^ 2 - stretchForm α m.major) ≤ κ * (2 * ε * α 2 ^ 2) := by linarith
      have k5 := le_of_mul_le_mul_left k4 hκ
      have k6 : α 2 ^ 2 ≤ α 1 ^ 2 := pow_le_pow_left₀ h2.le h.minor 2
      unfold dot at v2
      unfold stretchForm at k5
      nlinarith [sq_nonneg (m.major 2)]
    · have k1 := (pf ![0, 0, 1]).1
      have k2 := (abs_le.1 (h.moments ![0, 0, 1])).2
      have k3 := (abs_le.1 (h.moments m.minor)).1
      rw [v3, v4] at k3
      have d1 : dot (![0, 0, 1] : Vec ℝ) ![0, 0, 1] = 1 := by simp [dot]
      have d2 : stretchForm α ![0, 0, 1] = α 2 ^ 2 := by simp [stretchForm]
      rw [d1] at k1 k2
      rw [d2] at k2
      have k4 : κ * (stretchForm α m.minor - α 2 ^ 2) ≤ κ * (2 * ε * α 2 ^ 2) := by linarith
      have k5 := le_of_mul_le_mul_left k4 hκ
      have k6 : α 1 ^ 2 ≤ α 0 ^ 2 := pow_le_pow_left₀ h1.le h.inter 2
      unfold dot at v4
      unfold stretchForm at k5
      nlinarith [sq_nonneg (m.minor 0)]
  · exact absurd hc (henc.classifiable htol0 hwall hn)
  · exact absurd hc (henc.not_degenerate htol0)

end Verif.Shapes
