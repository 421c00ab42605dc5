import Verif.Shapes.Outcome

/-!
# Round objects (C126)

Objects which look the same after quarter turns about two axes through the centre.
-/

namespace Verif.Shapes

/-! ## Specification -/

/-- Quarter turn about the third axis. -/
def quarterZ (y : Vec ℝ) : Vec ℝ := ![-y 1, y 0, y 2]

/-- Quarter turn about the first axis. -/
def quarterX (y : Vec ℝ) : Vec ℝ := ![y 0, -y 2, y 1]

/-- A particle after a turn about the centre. -/
def turnAbout (cfg : Config) (T : Vec ℝ → Vec ℝ) (p : Pt) : Pt :=
  ⟨fun i => cfg.center i + T (fun k => p.x k - cfg.center k) i,
   fun i => cfg.srcCenter i + T (fun k => p.src k - cfg.srcCenter k) i, p.m⟩

/-- The object is, up to the order of its particles, the same after either quarter turn. -/
def Round (cfg : Config) : Prop :=
  (cfg.pts.map (turnAbout cfg quarterZ)).Perm cfg.pts ∧ (cfg.pts.map (turnAbout cfg quarterX)).Perm cfg.pts

/-! ## The tensor of a round object -/

theorem qz0 (y : Vec ℝ) : quarterZ y 0 = -y 1 := rfl
theorem qz1 (y : Vec ℝ) : quarterZ y 1 = y 0 := rfl
theorem qz2 (y : Vec ℝ) : quarterZ y 2 = y 2 := rfl
theorem qx0 (y : Vec ℝ) : quarterX y 0 = y 0 := rfl
theorem qx1 (y : Vec ℝ) : quarterX y 1 = -y 2 := rfl
theorem qx2 (y : Vec ℝ) : quarterX y 2 = y 1 := rfl

theorem rel_turnAbout (cfg : Config) (T : Vec ℝ → Vec ℝ) (p : Pt) :
    rel cfg (turnAbout cfg T p) = T (rel cfg p) := by
  funext i
  simp only [rel, turnAbout, add_sub_cancel_left]
  rfl

theorem ellipsoidal2_sphere (y : Vec ℝ) :
    ellipsoidal2 sphere.major sphere.inter sphere.minor sphere.q sphere.s y = dot y y := by
  simp [ellipsoidal2, sphere, dot]
  ring

theorem inside_sphere (cfg : Config) (p : Pt) :
    Inside cfg sphere.major sphere.inter sphere.minor sphere.q sphere.s p ↔
      dot (rel cfg p) (rel cfg p) < cfg.d ^ 2 ∧
      ∀ δ, cfg.deltaD = some δ → cfg.d ≠ δ → 1 ≤ dot (rel cfg p) (rel cfg p) / (cfg.d - δ) ^ 2 := by
  unfold Inside
  rw [ellipsoidal2_sphere]
  have : ∀ δ, dot sphere.major (rel cfg p) ^ 2 / (cfg.d - δ) ^ 2 +
      dot sphere.inter (rel cfg p) ^ 2 / (sphere.q * cfg.d - δ) ^ 2 +
      dot sphere.minor (rel cfg p) ^ 2 / (sphere.s * cfg.d - δ) ^ 2 = dot (rel cfg p) (rel cfg p) / (cfg.d - δ) ^ 2 := by
    intro δ
    simp only [sphere, dot, one_mul]
    simp
    ring
  simp only [this]

/-- The members of the first sphere (or shell) are as round as the object. -/
theorem members_round (cfg : Config) (T : Vec ℝ → Vec ℝ) (hT : ∀ y, dot (T y) (T y) = dot y y)
    (h : (cfg.pts.map (turnAbout cfg T)).Perm cfg.pts) :
    ((members cfg sphere).map (turnAbout cfg T)).Perm (members cfg sphere) := by
  unfold members
  refine List.Perm.trans (List.Perm.of_eq ?_) (h.filter _)
  rw [List.filter_map]
  congr 1
  apply List.filter_congr
  intro p _
  simp only [Function.comp_def, inside_sphere, rel_turnAbout, hT]

theorem sum_round {cfg : Config} {T : Vec ℝ → Vec ℝ} {ps : List Pt} (h : (ps.map (turnAbout cfg T)).Perm ps) (f : Pt → ℝ) :
    (ps.map fun p => f (turnAbout cfg T p)).sum = (ps.map f).sum := by
  have := (h.map f).sum_eq
  rwa [List.map_map] at this

theorem dot_qz (y : Vec ℝ) : dot (quarterZ y) (quarterZ y) = dot y y := by
  simp only [dot, qz0, qz1, qz2]; ring

theorem dot_qx (y : Vec ℝ) : dot (quarterX y) (quarterX y) = dot y y := by
  simp only [dot, qx0, qx1, qx2]; ring

/-- Weight of a particle in the tensor. -/
noncomputable def weightOf (cfg : Config) (p : Pt) : ℝ :=
  if cfg.reduced then dot (rel cfg p) (rel cfg p) else 1

theorem tensorOf_sphere (cfg : Config) (i j : Fin 3) :
    tensorOf cfg sphere i j = ((members cfg sphere).map fun p =>
      p.m * (p.src i - cfg.srcCenter i) * (p.src j - cfg.srcCenter j) / weightOf cfg p).sum /
      ((members cfg sphere).map fun p => p.m).sum := by
  unfold tensorOf massTensor
  simp only [ellipsoidal2_sphere]
  rfl

theorem weightOf_turn (cfg : Config) (T : Vec ℝ → Vec ℝ) (hT : ∀ y, dot (T y) (T y) = dot y y) (p : Pt) :
    weightOf cfg (turnAbout cfg T p) = weightOf cfg p := by
  unfold weightOf
  rw [rel_turnAbout, hT]

theorem src_turn (cfg : Config) (T : Vec ℝ → Vec ℝ) (p : Pt) (i : Fin 3) :
    (turnAbout cfg T p).src i - cfg.srcCenter i = T (fun k => p.src k - cfg.srcCenter k) i := by
  simp [turnAbout]

theorem moment_turn (cfg : Config) (T : Vec ℝ → Vec ℝ) (hT : ∀ y, dot (T y) (T y) = dot y y)
    (h : (cfg.pts.map (turnAbout cfg T)).Perm cfg.pts) (i j : Fin 3) :
    tensorOf cfg sphere i j = ((members cfg sphere).map fun p =>
      p.m * T (fun k => p.src k - cfg.srcCenter k) i * T (fun k => p.src k - cfg.srcCenter k) j / weightOf cfg p).sum /
      ((members cfg sphere).map fun p => p.m).sum := by
  rw [tensorOf_sphere, ← sum_round (members_round cfg T hT h)]
  simp only [weightOf_turn cfg T hT, src_turn]
  rfl

theorem sum_neg' (l : List Pt) (f g : Pt → ℝ) (h : ∀ p, f p = -g p) : (l.map f).sum = -(l.map g).sum := by
  induction l with
  | nil => simp
  | cons a l ih => simp only [List.map_cons, List.sum_cons, ih, h]; ring

/-- The tensor of a round object is a multiple of the unit matrix. -/
theorem tensor_round (cfg : Config) (h : Round cfg) :
    ∃ c, ∀ i j, tensorOf cfg sphere i j = if i = j then c else 0 := by
  have sy : ∀ i j, tensorOf cfg sphere i j = tensorOf cfg sphere j i := by
    intro i j
    rw [tensorOf_sphere, tensorOf_sphere]
    congr 3
    funext p
    ring
  have hz := moment_turn cfg quarterZ dot_qz h.1
  have hx := moment_turn cfg quarterX dot_qx h.2
  have z00 : tensorOf cfg sphere 0 0 = tensorOf cfg sphere 1 1 := by
    rw [hz 0 0, tensorOf_sphere]
    congr 3
    funext p
    rw [qz0]
    ring
  have x11 : tensorOf cfg sphere 1 1 = tensorOf cfg sphere 2 2 := by
    rw [hx 1 1, tensorOf_sphere]
    congr 3
    funext p
    rw [qx1]
    ring
  have z01 : tensorOf cfg sphere 0 1 = -tensorOf cfg sphere 1 0 := by
    rw [hz 0 1, tensorOf_sphere, ← neg_div]
    congr 1
    apply sum_neg'
    intro p
    rw [qz0, qz1]
    ring
  have z02 : tensorOf cfg sphere 0 2 = -tensorOf cfg sphere 1 2 := by
    rw [hz 0 2, tensorOf_sphere, ← neg_div]
    congr 1
    apply sum_neg'
    intro p
    rw [qz0, qz2]
    ring
  have z12 : tensorOf cfg sphere 1 2 = tensorOf cfg sphere 0 2 := by
    rw [hz 1 2, tensorOf_sphere]
    congr 3
  have e01 : tensorOf cfg sphere 0 1 = 0 := by
    have := sy 0 1
    linarith
  have e02 : tensorOf cfg sphere 0 2 = 0 := by linarith
  have e12 : tensorOf cfg sphere 1 2 = 0 := by linarith
  refine ⟨tensorOf cfg sphere 0 0, ?_⟩
  intro i j
  fin_cases i <;> fin_cases j <;> simp [e01, e02, e12, sy 1 0, sy 2 0, sy 2 1, z00, x11]

theorem eigen_round {t : Fin 3 → Fin 3 → ℝ} {c l : ℝ} {v : Vec ℝ} (ht : ∀ i j, t i j = if i = j then c else 0)
    (hv : dot v v = 1) (h : IsEigenvector t l v) : l = c := by
  have h0 := h 0
  have h1 := h 1
  have h2 := h 2
  simp only [ht] at h0 h1 h2
  simp at h0 h1 h2
  have : c * dot v v = l * dot v v := by
    unfold dot
    rcases h0 with h0 | h0 <;> rcases h1 with h1 | h1 <;> rcases h2 with h2 | h2 <;>
      simp [h0, h1, h2]
  rw [hv] at this
  linarith

/-- The principal axes of the first sphere of a round object have equal lengths. -/
theorem principal_round (cfg : Config) (h : Round cfg) (e : Ellipsoid) (he : PrincipalAxes cfg sphere e) :
    e.q = 1 ∧ e.s = 1 := by
  obtain ⟨k, hk⟩ := tensor_round cfg h
  obtain ⟨a, b, c, hc, hcb, hba, hq, hs, e1, e2, e3⟩ := he.lengths
  have h1 := eigen_round hk he.axes.1 e1
  have h2 := eigen_round hk he.axes.2.1 e2
  have h3 := eigen_round hk he.axes.2.2.1 e3
  have ab : a = b := by
    apply (pow_left_inj₀ (by linarith) (by linarith) two_ne_zero).1
    linarith
  have bc : b = c := by
    apply (pow_left_inj₀ (by linarith) (by linarith) two_ne_zero).1
    linarith
  subst ab
  subst bc
  exact ⟨by rw [hq, div_self hc.ne'], by rw [hs, div_self hc.ne']⟩

theorem settled_round (cfg : Config) (h : Round cfg) (htol : 0 ≤ cfg.tol) (e : Ellipsoid)
    (he : PrincipalAxes cfg sphere e) : Settled cfg sphere e := by
  obtain ⟨h1, h2⟩ := principal_round cfg h e he
  unfold Settled
  rw [h1, h2]
  simp [sphere, htol]

theorem reached_round (cfg : Config) (h : Round cfg) (htol : 0 ≤ cfg.tol) (n : Nat) (e : Ellipsoid)
    (hr : Reached cfg n e) : n = 0 ∧ e = sphere := by
  induction hr with
  | sphere => exact ⟨rfl, rfl⟩
  | step _ _ axes unsettled ih =>
    obtain ⟨-, rfl⟩ := ih
    exact absurd (settled_round cfg h htol _ axes) unsettled

theorem classified_round (cfg : Config) (h : Round cfg) (htol : 0 ≤ cfg.tol) (m : Morph) (hm : Classified cfg m) :
    m.q = 1 ∧ m.s = 1 ∧ m.d = cfg.d := by
  obtain ⟨n, e, e', hr, -, -, hp, -, rfl⟩ := hm
  obtain ⟨-, rfl⟩ := reached_round cfg h htol n e hr
  have := principal_round cfg h e' hp
  exact ⟨this.1, this.2, rfl⟩

theorem classifiable_round (cfg : Config) (h : Round cfg) (htol : 0 ≤ cfg.tol) (hw : 1 ≤ cfg.wall)
    (hn : cfg.itMin ≤ ((members cfg sphere).length : Int)) : ¬ Unclassifiable cfg := by
  rintro ⟨n, e, hr, hbad⟩
  obtain ⟨rfl, rfl⟩ := reached_round cfg h htol n e hr
  rcases hbad with hb | hb
  · have : cfg.wall ≤ 0 := by simpa using hb
    omega
  · omega

theorem not_degenerate_round (cfg : Config) (h : Round cfg) (htol : 0 ≤ cfg.tol) (hm : ∀ p ∈ cfg.pts, 0 < p.m)
    (hne : ∃ p ∈ members cfg sphere, (fun i => p.src i - cfg.srcCenter i) ≠ 0)
    (hred : cfg.reduced = true → ∀ p ∈ members cfg sphere, rel cfg p ≠ 0) : ¬ Degenerate cfg := by
  rintro ⟨n, e, hr, -, -, hbad⟩
  obtain ⟨rfl, rfl⟩ := reached_round cfg h htol n e hr
  have hmem : ∀ p ∈ members cfg sphere, p ∈ cfg.pts := fun p hp => List.mem_of_mem_filter hp
  rcases hbad with ⟨v, hv, hplane⟩ | ⟨hr, p, hp, hp0⟩ | ⟨δ, e', hδ, hd, hpa, hbad⟩
  · have hw : ∀ p ∈ members cfg sphere, 0 < weightOf cfg p := by
      intro p hp
      unfold weightOf
      split
      · rename_i hr
        exact dot_self_pos (hred hr p hp)
      · exact one_pos
    obtain ⟨c, hc⟩ := tensor_round cfg h
    -- the quadratic form of the tensor at `v` vanishes
    have hzero : ∀ i, tensorOf cfg sphere i 0 * v 0 + tensorOf cfg sphere i 1 * v 1 + tensorOf cfg sphere i 2 * v 2 = 0 := by
      intro i
      simp only [tensorOf_sphere]
      rw [div_mul_eq_mul_div, div_mul_eq_mul_div, div_mul_eq_mul_div, ← add_div, ← add_div]
      have key : ∀ l : List Pt, (∀ p ∈ l, dot v (fun i => p.src i - cfg.srcCenter i) = 0) →
          (l.map fun p => p.m * (p.src i - cfg.srcCenter i) * (p.src 0 - cfg.srcCenter 0) / weightOf cfg p).sum * v 0 +
          (l.map fun p => p.m * (p.src i - cfg.srcCenter i) * (p.src 1 - cfg.srcCenter 1) / weightOf cfg p).sum * v 1 +
          (l.map fun p => p.m * (p.src i - cfg.srcCenter i) * (p.src 2 - cfg.srcCenter 2) / weightOf cfg p).sum * v 2 = 0 := by
        intro l hl
        induction l with
        | nil => simp
        | cons p l ih =>
          have ih := ih fun p hp => hl p (List.mem_cons_of_mem _ hp)
          have hp := hl p List.mem_cons_self
          unfold dot at hp
          simp only [List.map_cons, List.sum_cons]
          have : p.m * (p.src i - cfg.srcCenter i) * (p.src 0 - cfg.srcCenter 0) / weightOf cfg p * v 0 +
              p.m * (p.src i - cfg.srcCenter i) * (p.src 1 - cfg.srcCenter 1) / weightOf cfg p * v 1 +
              p.m * (p.src i - cfg.srcCenter i) * (p.src 2 - cfg.srcCenter 2) / weightOf cfg p * v 2 = 0 := by
            calc _ = p.m * (p.src i - cfg.srcCenter i) / weightOf cfg p *
                (v 0 * (p.src 0 - cfg.srcCenter 0) + v 1 * (p.src 1 - cfg.srcCenter 1) + v 2 * (p.src 2 - cfg.srcCenter 2)) := by
                  ring
              _ = 0 := by rw [hp, mul_zero]
          linarith
      rw [key _ hplane, zero_div]
    have hc0 : c = 0 := by
      by_contra hcne
      apply hv
      have h0 := hzero 0
      have h1 := hzero 1
      have h2 := hzero 2
      simp only [hc] at h0 h1 h2
      simp [hcne] at h0 h1 h2
      funext i
      fin_cases i
      · exact h0
      · exact h1
      · exact h2
    -- so that the trace vanishes
    obtain ⟨p, hp, hpne⟩ := hne
    have hM : 0 < ((members cfg sphere).map fun p => p.m).sum := by
      apply List.sum_pos
      · simp only [List.mem_map]
        rintro _ ⟨p, hp, rfl⟩
        exact hm p (hmem p hp)
      · exact fun h => (List.ne_nil_of_mem hp) (List.map_eq_nil_iff.1 h)
    have hpos : ∀ i, 0 ≤ tensorOf cfg sphere i i := by
      intro i
      rw [tensorOf_sphere]
      apply div_nonneg _ hM.le
      apply List.sum_nonneg
      simp only [List.mem_map]
      rintro _ ⟨p, hp, rfl⟩
      have := hm p (hmem p hp)
      have := hw p hp
      rw [mul_assoc]
      exact div_nonneg (mul_nonneg (by linarith) (mul_self_nonneg _)) (by linarith)
    have hsome : ∃ i, p.src i - cfg.srcCenter i ≠ 0 := by
      by_contra hall
      push Not at hall
      exact hpne (funext hall)
    obtain ⟨i, hi⟩ := hsome
    have : 0 < tensorOf cfg sphere i i := by
      rw [tensorOf_sphere]
      apply div_pos _ hM
      have hle : p.m * (p.src i - cfg.srcCenter i) * (p.src i - cfg.srcCenter i) / weightOf cfg p ≤
          ((members cfg sphere).map fun p => p.m * (p.src i - cfg.srcCenter i) * (p.src i - cfg.srcCenter i) /
            weightOf cfg p).sum := by
        apply List.single_le_sum
        · simp only [List.mem_map]
          rintro _ ⟨p, hp, rfl⟩
          have := hm p (hmem p hp)
          have := hw p hp
          rw [mul_assoc]
          exact div_nonneg (mul_nonneg (by linarith) (mul_self_nonneg _)) (by linarith)
        · exact List.mem_map_of_mem (f := fun p : Pt => p.m * (p.src i - cfg.srcCenter i) * (p.src i - cfg.srcCenter i) /
            weightOf cfg p) hp
      refine lt_of_lt_of_le ?_ hle
      rw [mul_assoc]
      exact div_pos (mul_pos (hm p (hmem p hp)) (mul_self_pos.2 hi)) (hw p hp)
    rw [hc, if_pos rfl, hc0] at this
    exact lt_irrefl _ this
  · exact hred hr p hp hp0
  · obtain ⟨h1, h2⟩ := principal_round cfg h e' hpa
    rw [h1, h2, one_mul] at hbad
    rcases hbad with hb | hb <;> exact hd hb

/-- C126. An object which looks the same after quarter turns about two axes through its centre has, in every sphere or shell
with enough particles, an ellipsoid with three equal axes. -/
theorem C126_round (cfg : Config) (morph : Morph) (sc : Scratch) (hf : Fits cfg sc) (hsol : GoodSolver cfg.solver)
    (hm : ∀ p ∈ cfg.pts, 0 < p.m) (h0 : 0 ≤ cfg.tol) (htol : cfg.tol < 1) (hw : 1 ≤ cfg.wall) (h : Round cfg)
    (hn : cfg.itMin ≤ ((members cfg sphere).length : Int))
    (hne : ∃ p ∈ members cfg sphere, (fun i => p.src i - cfg.srcCenter i) ≠ 0)
    (hred : cfg.reduced = true → ∀ p ∈ members cfg sphere, rel cfg p ≠ 0)
    (fuel : Nat) (hfuel : cfg.wall.toNat + 1 ≤ fuel) :
    ∃ m sc', runAlgo fuel cfg morph sc = some (some (m, sc')) ∧ m.d = cfg.d ∧ m.q = 1 ∧ m.s = 1 := by
  rcases C105_outcome cfg morph sc hf hsol hm htol fuel hfuel with ⟨m, sc', hr, hc⟩ | ⟨-, -, hu⟩ | ⟨-, hd⟩
  · obtain ⟨h1, h2, h3⟩ := classified_round cfg h h0 m hc
    exact ⟨m, sc', hr, h3, h1, h2⟩
  · exact absurd hu (classifiable_round cfg h h0 hw hn)
  · exact absurd hd (not_degenerate_round cfg h h0 hm hne hred)

end Verif.Shapes
