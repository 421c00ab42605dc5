import Verif.Shapes.Round
import Verif.Shapes.Rotation

/-!
# The shape of an object which is contained as a whole (C160)

If all particles are well inside the ellipsoid whose size is prescribed, the iteration of Katz (Shapes/Model.lean) selects all of them
in every step, so that (without the weights of the reduced tensor) the shape is that of the tensor of second moments of all particles.
-/

namespace Verif.Shapes

open Matrix

/-- `t` has the principal axes `major`, `inter`, `minor` with mean squared extents `a ^ 2 ≥ b ^ 2 ≥ c ^ 2 > 0` along them. -/
structure Principal (t : Fin 3 → Fin 3 → ℝ) (a b c : ℝ) (major inter minor : Vec ℝ) : Prop where
  pos : 0 < c
  cb : c ≤ b
  ba : b ≤ a
  axes : Orthonormal major inter minor
  major : IsEigenvector t (a ^ 2) major
  inter : IsEigenvector t (b ^ 2) inter
  minor : IsEigenvector t (c ^ 2) minor

theorem parseval {major inter minor : Vec ℝ} (h : Orthonormal major inter minor) (y : Vec ℝ) :
    dot major y ^ 2 + dot inter y ^ 2 + dot minor y ^ 2 = dot y y := by
  have hframe := orthonormal_frame h
  have expand : ∀ i, y i = dot major y * major i + dot inter y * inter i + dot minor y * minor i := by
    intro i
    have h1 : (Matrix.of ![major, inter, minor])ᵀ *ᵥ (Matrix.of ![major, inter, minor] *ᵥ y) = y := by
      rw [Matrix.mulVec_mulVec, hframe.transpose_mul, Matrix.one_mulVec]
    have h2 := congrFun h1 i
    rw [mulVec_three, mulVec_three, mulVec_three, mulVec_three] at h2
    simp only [Matrix.transpose_apply, Matrix.of_apply] at h2
    have h3 : major i * dot major y + inter i * dot inter y + minor i * dot minor y = y i := h2
    linarith
  have e0 := expand 0
  have e1 := expand 1
  have e2 := expand 2
  unfold dot at e0 e1 e2 ⊢
  linear_combination -(y 0 * e0 + y 1 * e1 + y 2 * e2)

theorem frame_reversed {major inter minor : Vec ℝ} (h : Orthonormal major inter minor) :
    Frame3 ![minor, inter, major] := by
  obtain ⟨n1, n2, n3, o1, o2, o3⟩ := h
  have o1' := dot_comm inter major
  have o2' := dot_comm minor major
  have o3' := dot_comm minor inter
  intro k j
  fin_cases k <;> fin_cases j <;> simp [n1, n2, n3, o1, o2, o3, o1', o2', o3']

/-- The extents along the principal axes are determined by the tensor. -/
theorem Principal.unique {t : Fin 3 → Fin 3 → ℝ} (hsym : ∀ i j, t i j = t j i) {a b c a' b' c' : ℝ}
    {x y z x' y' z' : Vec ℝ} (h : Principal t a b c x y z) (h' : Principal t a' b' c' x' y' z') :
    a' = a ∧ b' = b ∧ c' = c := by
  have hb : 0 < b := h.pos.trans_le h.cb
  have hb' : 0 < b' := h'.pos.trans_le h'.cb
  have ha : 0 < a := hb.trans_le h.ba
  have ha' : 0 < a' := hb'.trans_le h'.ba
  have hc := h.pos
  have hc' := h'.pos
  have key := (spectral t hsym ![c ^ 2, b ^ 2, a ^ 2] ![c' ^ 2, b' ^ 2, a' ^ 2] ![z, y, x] ![z', y', x']
    (frame_reversed h.axes) (frame_reversed h'.axes)
    (by intro k; fin_cases k; exacts [h.minor, h.inter, h.major])
    (by intro k; fin_cases k; exacts [h'.minor, h'.inter, h'.major])
    ⟨pow_le_pow_left₀ hc.le h.cb 2, pow_le_pow_left₀ hb.le h.ba 2⟩
    ⟨pow_le_pow_left₀ hc'.le h'.cb 2, pow_le_pow_left₀ hb'.le h'.ba 2⟩).1
  have k0 : c' ^ 2 = c ^ 2 := congrFun key 0
  have k1 : b' ^ 2 = b ^ 2 := congrFun key 1
  have k2 : a' ^ 2 = a ^ 2 := congrFun key 2
  exact ⟨(pow_left_inj₀ ha'.le ha.le two_ne_zero).1 k2, (pow_left_inj₀ hb'.le hb.le two_ne_zero).1 k1,
    (pow_left_inj₀ hc'.le hc.le two_ne_zero).1 k0⟩

/-- Axes of different extent are determined up to sign. -/
theorem Principal.unique_axes {t : Fin 3 → Fin 3 → ℝ} (hsym : ∀ i j, t i j = t j i) {a b c : ℝ}
    {x y z x' y' z' : Vec ℝ} (h : Principal t a b c x y z) (h' : Principal t a b c x' y' z') (hcb : c < b) (hba : b < a) :
    UpToSign x' x ∧ UpToSign y' y ∧ UpToSign z' z := by
  have hc := h.pos
  have hb : 0 < b := h.pos.trans_le h.cb
  have ha : 0 < a := hb.trans_le h.ba
  have key := (spectral t hsym ![c ^ 2, b ^ 2, a ^ 2] ![c ^ 2, b ^ 2, a ^ 2] ![z, y, x] ![z', y', x']
    (frame_reversed h.axes) (frame_reversed h'.axes)
    (by intro k; fin_cases k; exacts [h.minor, h.inter, h.major])
    (by intro k; fin_cases k; exacts [h'.minor, h'.inter, h'.major])
    ⟨pow_le_pow_left₀ hc.le h.cb 2, pow_le_pow_left₀ hb.le h.ba 2⟩
    ⟨pow_le_pow_left₀ hc.le h'.cb 2, pow_le_pow_left₀ hb.le h'.ba 2⟩).2
  refine axes_unique x y z x' y' z' (b / a) (c / a) h.axes h'.axes ?_ (div_pos hc ha) (div_lt_div_of_pos_right hcb ha)
    ((div_lt_one ha).2 hba)
  intro v
  have hk := key (fun l => a ^ 2 / l) v
  have e0 : (![c ^ 2, b ^ 2, a ^ 2] : Fin 3 → ℝ) 0 = c ^ 2 := rfl
  have e1 : (![c ^ 2, b ^ 2, a ^ 2] : Fin 3 → ℝ) 1 = b ^ 2 := rfl
  have e2 : (![c ^ 2, b ^ 2, a ^ 2] : Fin 3 → ℝ) 2 = a ^ 2 := rfl
  have f0 : (![z', y', x'] : Fin 3 → Vec ℝ) 0 = z' := rfl
  have f1 : (![z', y', x'] : Fin 3 → Vec ℝ) 1 = y' := rfl
  have f2 : (![z', y', x'] : Fin 3 → Vec ℝ) 2 = x' := rfl
  have g0 : (![z, y, x] : Fin 3 → Vec ℝ) 0 = z := rfl
  have g1 : (![z, y, x] : Fin 3 → Vec ℝ) 1 = y := rfl
  have g2 : (![z, y, x] : Fin 3 → Vec ℝ) 2 = x := rfl
  rw [e0, e1, e2, f0, f1, f2, g0, g1, g2, div_self (pow_ne_zero 2 ha.ne'), one_mul, one_mul] at hk
  unfold ellipsoidal2
  have r1 : ∀ w : ℝ, w / (b / a) ^ 2 = a ^ 2 / b ^ 2 * w := fun w => by field_simp
  have r2 : ∀ w : ℝ, w / (c / a) ^ 2 = a ^ 2 / c ^ 2 * w := fun w => by field_simp
  rw [r1, r1, r2, r2]
  linarith

/-! ## The iteration -/

/-- Second moments of all particles about the centre, divided by the total mass. -/
noncomputable def wholeTensor (cfg : Config) : Fin 3 → Fin 3 → ℝ := massTensor cfg (fun _ => 1) cfg.pts

theorem wholeTensor_symm (cfg : Config) (i j : Fin 3) : wholeTensor cfg i j = wholeTensor cfg j i := by
  unfold wholeTensor massTensor
  congr 2
  apply List.map_congr_left
  intro p _
  ring

/-- All particles are well inside. -/
structure Contained (cfg : Config) (a b c : ℝ) (x y z : Vec ℝ) : Prop where
  plain : cfg.reduced = false
  full : cfg.deltaD = none
  principal : Principal (wholeTensor cfg) a b c x y z
  inside : ∀ p ∈ cfg.pts, a ^ 2 * dot (rel cfg p) (rel cfg p) < c ^ 2 * cfg.d ^ 2

variable {cfg : Config} {a b c : ℝ} {x y z : Vec ℝ}

open Classical in
theorem Contained.members_sphere (h : Contained cfg a b c x y z) : members cfg sphere = cfg.pts := by
  have hc := h.principal.pos
  have hca : c ≤ a := h.principal.cb.trans h.principal.ba
  unfold members
  rw [List.filter_eq_self]
  intro p hp
  refine decide_eq_true ?_
  refine ⟨?_, fun δ hδ => by rw [h.full] at hδ; cases hδ⟩
  have : ellipsoidal2 sphere.major sphere.inter sphere.minor sphere.q sphere.s (rel cfg p) = dot (rel cfg p) (rel cfg p) :=
    ellipsoidal2_sphere _
  rw [this]
  have h1 := h.inside p hp
  have h2 : c ^ 2 * cfg.d ^ 2 ≤ a ^ 2 * cfg.d ^ 2 :=
    mul_le_mul_of_nonneg_right (pow_le_pow_left₀ hc.le hca 2) (sq_nonneg _)
  have ha : 0 < a ^ 2 := pow_pos (hc.trans_le hca) 2
  exact lt_of_mul_lt_mul_left (h1.trans_le h2) ha.le

open Classical in
theorem Contained.members_later (h : Contained cfg a b c x y z) (e : Ellipsoid)
    (ho : Orthonormal e.major e.inter e.minor) (hq : e.q = b / a) (hs : e.s = c / a) : members cfg e = cfg.pts := by
  have hc := h.principal.pos
  have hcb := h.principal.cb
  have hba := h.principal.ba
  have hb : 0 < b := hc.trans_le hcb
  have ha : 0 < a := hb.trans_le hba
  unfold members
  rw [List.filter_eq_self]
  intro p hp
  refine decide_eq_true ?_
  refine ⟨?_, fun δ hδ => by rw [h.full] at hδ; cases hδ⟩
  have h1 := h.inside p hp
  rw [← parseval ho] at h1
  unfold ellipsoidal2
  rw [hq, hs]
  generalize dot e.major (rel cfg p) = u at h1
  generalize dot e.inter (rel cfg p) = v at h1
  generalize dot e.minor (rel cfg p) = w at h1
  have r1 : u ^ 2 + v ^ 2 / (b / a) ^ 2 + w ^ 2 / (c / a) ^ 2 = u ^ 2 + a ^ 2 * v ^ 2 / b ^ 2 + a ^ 2 * w ^ 2 / c ^ 2 := by
    field_simp
  rw [r1]
  have hc2 : 0 < c ^ 2 := pow_pos hc 2
  have i1 : u ^ 2 ≤ a ^ 2 * u ^ 2 / c ^ 2 := by
    rw [le_div_iff₀ hc2, mul_comm]
    exact mul_le_mul_of_nonneg_right (pow_le_pow_left₀ hc.le (hcb.trans hba) 2) (sq_nonneg _)
  have i2 : a ^ 2 * v ^ 2 / b ^ 2 ≤ a ^ 2 * v ^ 2 / c ^ 2 :=
    div_le_div_of_nonneg_left (by positivity) hc2 (pow_le_pow_left₀ hc.le hcb 2)
  have i3 : a ^ 2 * u ^ 2 / c ^ 2 + a ^ 2 * v ^ 2 / c ^ 2 + a ^ 2 * w ^ 2 / c ^ 2 < cfg.d ^ 2 := by
    rw [← add_div, ← add_div, div_lt_iff₀ hc2]
    linarith
  linarith

/-- All particles are inside the sphere of the first guess and inside the ellipsoid which has the principal axes of all particles. -/
structure Enclosed (cfg : Config) (a b c : ℝ) (x y z : Vec ℝ) : Prop where
  plain : cfg.reduced = false
  full : cfg.deltaD = none
  principal : Principal (wholeTensor cfg) a b c x y z
  first : members cfg sphere = cfg.pts
  later : ∀ e : Ellipsoid, Principal (wholeTensor cfg) a b c e.major e.inter e.minor → e.q = b / a → e.s = c / a → members cfg e = cfg.pts

theorem Contained.enclosed (h : Contained cfg a b c x y z) : Enclosed cfg a b c x y z :=
  ⟨h.plain, h.full, h.principal, h.members_sphere, fun e hP hq hs => h.members_later e hP.axes hq hs⟩

theorem Enclosed.tensor (h : Enclosed cfg a b c x y z) (e : Ellipsoid) (hm : members cfg e = cfg.pts) :
    tensorOf cfg e = wholeTensor cfg := by
  unfold tensorOf wholeTensor
  rw [hm, h.plain]
  simp

/-- One iteration finds the principal axes of the whole. -/
theorem Enclosed.step (h : Enclosed cfg a b c x y z) (e e' : Ellipsoid) (hm : members cfg e = cfg.pts)
    (hp : PrincipalAxes cfg e e') :
    e'.q = b / a ∧ e'.s = c / a ∧ Principal (wholeTensor cfg) a b c e'.major e'.inter e'.minor := by
  obtain ⟨ho, a', b', c', h1, h2, h3, hq, hs, e1, e2, e3⟩ := hp
  rw [h.tensor e hm] at e1 e2 e3
  obtain ⟨rfl, rfl, rfl⟩ := h.principal.unique (wholeTensor_symm cfg) (⟨h1, h2, h3, ho, e1, e2, e3⟩ :
    Principal (wholeTensor cfg) a' b' c' e'.major e'.inter e'.minor)
  exact ⟨hq, hs, h1, h2, h3, ho, e1, e2, e3⟩

theorem Enclosed.reached (h : Enclosed cfg a b c x y z) (htol : 0 ≤ cfg.tol) (n : Nat) (e : Ellipsoid)
    (hr : Reached cfg n e) : n ≤ 1 ∧ members cfg e = cfg.pts ∧ (1 ≤ n → e.q = b / a ∧ e.s = c / a) := by
  have hc := h.principal.pos
  have hb : 0 < b := hc.trans_le h.principal.cb
  have ha : 0 < a := hb.trans_le h.principal.ba
  induction hr with
  | sphere => exact ⟨by omega, h.first, fun h => by omega⟩
  | @step n e e' hr enough axes unsettled ih =>
    obtain ⟨hn, hm, hqs⟩ := ih
    obtain ⟨hq, hs, hP⟩ := h.step e e' hm axes
    rcases Nat.lt_or_ge n 1 with hn0 | hn1
    · exact ⟨by omega, h.later e' hP hq hs, fun _ => ⟨hq, hs⟩⟩
    · obtain ⟨hq', hs'⟩ := hqs hn1
      refine absurd ?_ unsettled
      unfold Settled
      rw [hq, hs, hq', hs', sub_self, sub_self, abs_zero]
      exact ⟨mul_nonneg htol (div_pos hb ha).le, mul_nonneg htol (div_pos hc ha).le⟩

theorem Enclosed.classified (h : Enclosed cfg a b c x y z) (htol : 0 ≤ cfg.tol) (m : Morph) (hm : Classified cfg m) :
    m.q = b / a ∧ m.s = c / a ∧ Principal (wholeTensor cfg) a b c m.major m.inter m.minor := by
  obtain ⟨n, e, e', hr, -, -, hp, -, rfl⟩ := hm
  exact h.step e e' (h.reached htol n e hr).2.1 hp

theorem Enclosed.classifiable (h : Enclosed cfg a b c x y z) (htol : 0 ≤ cfg.tol) (hw : 2 ≤ cfg.wall)
    (hn : cfg.itMin ≤ (cfg.pts.length : Int)) : ¬ Unclassifiable cfg := by
  rintro ⟨n, e, hr, hbad⟩
  obtain ⟨h1, h2, -⟩ := h.reached htol n e hr
  rw [h2] at hbad
  omega

theorem Enclosed.not_degenerate (h : Enclosed cfg a b c x y z) (htol : 0 ≤ cfg.tol) : ¬ Degenerate cfg := by
  rintro ⟨n, e, hr, -, -, hbad⟩
  obtain ⟨-, hm, -⟩ := h.reached htol n e hr
  rw [hm] at hbad
  have hP := h.principal
  have hc := hP.pos
  have hb : 0 < b := hc.trans_le hP.cb
  have ha : 0 < a := hb.trans_le hP.ba
  rcases hbad with ⟨v, hv, hplane⟩ | ⟨hr, -⟩ | ⟨δ, e', hδ, -⟩
  · -- the tensor maps `v` to zero
    have hzero : ∀ i, wholeTensor cfg i 0 * v 0 + wholeTensor cfg i 1 * v 1 + wholeTensor cfg i 2 * v 2 = 0 := by
      intro i
      unfold wholeTensor massTensor
      rw [div_mul_eq_mul_div, div_mul_eq_mul_div, div_mul_eq_mul_div, ← add_div, ← add_div]
      have key : ∀ l : List Pt, (∀ p ∈ l, dot v (fun i => p.src i - cfg.srcCenter i) = 0) →
          (l.map fun p => p.m * (p.src i - cfg.srcCenter i) * (p.src 0 - cfg.srcCenter 0) / 1).sum * v 0 +
          (l.map fun p => p.m * (p.src i - cfg.srcCenter i) * (p.src 1 - cfg.srcCenter 1) / 1).sum * v 1 +
          (l.map fun p => p.m * (p.src i - cfg.srcCenter i) * (p.src 2 - cfg.srcCenter 2) / 1).sum * v 2 = 0 := by
        intro l hl
        induction l with
        | nil => simp
        | cons p l ih =>
          have h1 := ih fun p' hp' => hl p' (List.mem_cons_of_mem _ hp')
          have h2 := hl p (List.mem_cons_self)
          unfold dot at h2
          simp only [List.map_cons, List.sum_cons]
          linear_combination h1 + p.m * (p.src i - cfg.srcCenter i) * h2
      rw [key cfg.pts hplane, zero_div]
    have hsym := wholeTensor_symm cfg
    have orth : ∀ (l : ℝ) (w : Vec ℝ), l ≠ 0 → IsEigenvector (wholeTensor cfg) l w → dot w v = 0 := by
      intro l w hl hw
      have w0 := hw 0
      have w1 := hw 1
      have w2 := hw 2
      have z0 := hzero 0
      have z1 := hzero 1
      have z2 := hzero 2
      rw [hsym 1 0] at w1
      rw [hsym 2 0, hsym 2 1] at w2
      rw [hsym 1 0] at z1
      rw [hsym 2 0, hsym 2 1] at z2
      have : l * dot w v = 0 := by
        unfold dot
        linear_combination -(v 0 * w0 + v 1 * w1 + v 2 * w2) + w 0 * z0 + w 1 * z1 + w 2 * z2
      exact (mul_eq_zero.1 this).resolve_left hl
    have h1 := orth _ _ (pow_ne_zero 2 ha.ne') hP.major
    have h2 := orth _ _ (pow_ne_zero 2 hb.ne') hP.inter
    have h3 := orth _ _ (pow_ne_zero 2 hc.ne') hP.minor
    have h4 := parseval hP.axes v
    rw [h1, h2, h3] at h4
    have h5 := dot_self_pos hv
    linarith
  · rw [h.plain] at hr; cases hr
  · rw [h.full] at hδ; cases hδ

theorem Contained.classified (h : Contained cfg a b c x y z) (htol : 0 ≤ cfg.tol) (m : Morph) (hm : Classified cfg m) :
    m.q = b / a ∧ m.s = c / a ∧ Principal (wholeTensor cfg) a b c m.major m.inter m.minor := h.enclosed.classified htol m hm

theorem Contained.classifiable (h : Contained cfg a b c x y z) (htol : 0 ≤ cfg.tol) (hw : 2 ≤ cfg.wall)
    (hn : cfg.itMin ≤ (cfg.pts.length : Int)) : ¬ Unclassifiable cfg := h.enclosed.classifiable htol hw hn

theorem Contained.not_degenerate (h : Contained cfg a b c x y z) (htol : 0 ≤ cfg.tol) : ¬ Degenerate cfg := h.enclosed.not_degenerate htol

end Verif.Shapes
