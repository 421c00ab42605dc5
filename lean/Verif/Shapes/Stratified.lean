import Verif.Shapes.Whole
import Verif.Shapes.Examples

/-!
# The true shape is a fixed point of the iteration (C165)

The step from the eigenvalues of the shape tensor to axis ratios is commented in the code with
"It is assumed that eigenvalues are approximately proportional to a^2 etc. (true for uniform ellipsoid or uniform shell),
though I have never seen any proof", shape_profs_algos.pyx:102.  Here it is proved for every object which is made of similar
ellipsoidal surfaces, whatever the profile, with both kinds of weights, as long as the particles in an ellipsoid are used; for
shells of constant thickness it is refuted.
-/

namespace Verif.Shapes

/-! ## Specification -/

/-- The position relative to the centre after undoing a stretching by `α, β, γ` along `x, y, z`. -/
noncomputable def unstretched (cfg : Config) (α β γ : ℝ) (x y z : Vec ℝ) (p : Pt) : Vec ℝ :=
  ![dot x (rel cfg p) / α, dot y (rel cfg p) / β, dot z (rel cfg p) / γ]

/-- Second moments of the particles whose unstretched positions have the squared distance `r` from the centre. -/
noncomputable def surfaceMoment (cfg : Config) (α β γ : ℝ) (x y z : Vec ℝ) (r : ℝ) (i j : Fin 3) : ℝ :=
  open Classical in
  ((cfg.pts.filter fun p => decide (dot (unstretched cfg α β γ x y z p) (unstretched cfg α β γ x y z p) = r)).map fun p =>
    p.m * unstretched cfg α β γ x y z p i * unstretched cfg α β γ x y z p j).sum

/-- The object is a round object stretched by `α ≥ β ≥ γ` along the axes `x, y, z`: it consists of similar ellipsoidal surfaces on each
of which, after undoing the stretching, no direction is preferred. -/
structure Stratified (cfg : Config) (α β γ : ℝ) (x y z : Vec ℝ) : Prop where
  pos : 0 < γ
  cb : γ ≤ β
  ba : β ≤ α
  axes : Orthonormal x y z
  surfaces : ∀ r, ∃ κ, ∀ i j, surfaceMoment cfg α β γ x y z r i j = if i = j then κ else 0
  /-- the tensor is that of the positions, not of velocities -/
  positions : ∀ p ∈ cfg.pts, (fun i => p.src i - cfg.srcCenter i) = rel cfg p
  masses : ∀ p ∈ cfg.pts, 0 < p.m

/-- Not a shell with an inner boundary. -/
def FullEllipsoid (cfg : Config) : Prop := ∀ δ, cfg.deltaD = some δ → cfg.d = δ

/-- The true shape of a stretched round object. -/
noncomputable def trueShape (α β γ : ℝ) (x y z : Vec ℝ) : Ellipsoid := ⟨x, y, z, β / α, γ / α⟩

/-! ## Sums over surfaces -/

open Classical in
theorem sum_fibres {A : Type} (k : A → ℝ) (g : A → ℝ) (R : Finset ℝ) : ∀ l : List A, (∀ a ∈ l, k a ∈ R) →
    (l.map g).sum = ∑ r ∈ R, ((l.filter fun a => decide (k a = r)).map g).sum := by
  intro l
  induction l with
  | nil => intro _; simp
  | cons a l ih =>
    intro h
    have h1 : ∀ r, (((a :: l).filter fun a => decide (k a = r)).map g).sum =
        (if k a = r then g a else 0) + ((l.filter fun a => decide (k a = r)).map g).sum := by
      intro r
      by_cases hr : k a = r
      · rw [List.filter_cons, if_pos (decide_eq_true hr), List.map_cons, List.sum_cons, if_pos hr]
      · rw [List.filter_cons, if_neg (by simpa using hr), if_neg hr, zero_add]
    simp only [h1]
    rw [Finset.sum_add_distrib, Finset.sum_ite_eq, if_pos (h a List.mem_cons_self), List.map_cons, List.sum_cons,
      ih fun b hb => h b (List.mem_cons_of_mem _ hb)]

variable {cfg : Config} {α β γ : ℝ} {x y z : Vec ℝ}

open Classical in
/-- Moments with weights which depend on the surface only. -/
theorem Stratified.moments (h : Stratified cfg α β γ x y z) (f : ℝ → ℝ) : ∃ κ, ∀ i j,
    (cfg.pts.map fun p => f (dot (unstretched cfg α β γ x y z p) (unstretched cfg α β γ x y z p)) *
      (p.m * unstretched cfg α β γ x y z p i * unstretched cfg α β γ x y z p j)).sum = if i = j then κ else 0 := by
  choose κ hκ using h.surfaces
  set k : Pt → ℝ := fun p => dot (unstretched cfg α β γ x y z p) (unstretched cfg α β γ x y z p) with hk
  set R : Finset ℝ := (cfg.pts.map k).toFinset with hR
  refine ⟨∑ r ∈ R, f r * κ r, fun i j => ?_⟩
  rw [sum_fibres k _ R cfg.pts fun p hp => by rw [hR, List.mem_toFinset]; exact List.mem_map_of_mem hp]
  have h1 : ∀ r, ((cfg.pts.filter fun p => decide (k p = r)).map fun p => f (k p) *
      (p.m * unstretched cfg α β γ x y z p i * unstretched cfg α β γ x y z p j)).sum = f r * (if i = j then κ r else 0) := by
    intro r
    rw [← hκ r i j]
    unfold surfaceMoment
    rw [← List.sum_map_mul_left]
    congr 1
    apply List.map_congr_left
    intro p hp
    have : k p = r := by simpa using (List.mem_filter.1 hp).2
    rw [this]
  rw [Finset.sum_congr rfl fun r _ => h1 r]
  split
  · rfl
  · simp

theorem Stratified.beta (h : Stratified cfg α β γ x y z) : 0 < β := h.pos.trans_le h.cb
theorem Stratified.alpha (h : Stratified cfg α β γ x y z) : 0 < α := h.beta.trans_le h.ba

theorem expand_frame {major inter minor : Vec ℝ} (h : Orthonormal major inter minor) (v : Vec ℝ) (i : Fin 3) :
    v i = dot major v * major i + dot inter v * inter i + dot minor v * minor i := by
  have hframe := orthonormal_frame h
  have h1 : (Matrix.of ![major, inter, minor]).transpose.mulVec ((Matrix.of ![major, inter, minor]).mulVec v) = v := by
    rw [Matrix.mulVec_mulVec, hframe.transpose_mul, Matrix.one_mulVec]
  have h2 := congrFun h1 i
  rw [mulVec_three, mulVec_three, mulVec_three, mulVec_three] at h2
  simp only [Matrix.transpose_apply, Matrix.of_apply] at h2
  have h3 : major i * dot major v + inter i * dot inter v + minor i * dot minor v = v i := h2
  linarith

theorem Stratified.rel (h : Stratified cfg α β γ x y z) (p : Pt) (i : Fin 3) :
    Shapes.rel cfg p i = α * unstretched cfg α β γ x y z p 0 * x i + β * unstretched cfg α β γ x y z p 1 * y i +
      γ * unstretched cfg α β γ x y z p 2 * z i := by
  have ha := h.alpha.ne'
  have hb := h.beta.ne'
  have hc := h.pos.ne'
  have e0 : α * unstretched cfg α β γ x y z p 0 = dot x (Shapes.rel cfg p) := mul_div_cancel₀ _ ha
  have e1 : β * unstretched cfg α β γ x y z p 1 = dot y (Shapes.rel cfg p) := mul_div_cancel₀ _ hb
  have e2 : γ * unstretched cfg α β γ x y z p 2 = dot z (Shapes.rel cfg p) := mul_div_cancel₀ _ hc
  rw [e0, e1, e2]
  exact expand_frame h.axes _ _

/-- The ellipsoidal radius with respect to the true shape is that of the surface. -/
theorem Stratified.radius (h : Stratified cfg α β γ x y z) (p : Pt) :
    ellipsoidal2 x y z (β / α) (γ / α) (Shapes.rel cfg p) =
      α ^ 2 * dot (unstretched cfg α β γ x y z p) (unstretched cfg α β γ x y z p) := by
  have ha := h.alpha.ne'
  have hb := h.beta.ne'
  have hc := h.pos.ne'
  have e0 : unstretched cfg α β γ x y z p 0 = dot x (Shapes.rel cfg p) / α := rfl
  have e1 : unstretched cfg α β γ x y z p 1 = dot y (Shapes.rel cfg p) / β := rfl
  have e2 : unstretched cfg α β γ x y z p 2 = dot z (Shapes.rel cfg p) / γ := rfl
  unfold ellipsoidal2
  conv_rhs => unfold dot
  rw [e0, e1, e2]
  field_simp

/-- Ellipsoids with the same ratios and the same surfaces. -/
structure SameSurfaces (e e' : Ellipsoid) : Prop where
  q : e.q = e'.q
  s : e.s = e'.s
  surf : ∀ v, ellipsoidal2 e.major e.inter e.minor e.q e.s v = ellipsoidal2 e'.major e'.inter e'.minor e'.q e'.s v

theorem inside_full (hfull : FullEllipsoid cfg) (e : Ellipsoid) (p : Pt) :
    Inside cfg e.major e.inter e.minor e.q e.s p ↔
      ellipsoidal2 e.major e.inter e.minor e.q e.s (rel cfg p) < cfg.d ^ 2 :=
  ⟨fun h => h.1, fun h => ⟨h, fun δ hδ hd => absurd (hfull δ hδ) hd⟩⟩

theorem SameSurfaces.members (hfull : FullEllipsoid cfg) {e e' : Ellipsoid} (h : SameSurfaces e e') :
    Shapes.members cfg e = Shapes.members cfg e' := by
  unfold Shapes.members
  apply List.filter_congr
  intro p _
  refine decide_eq_decide.2 ?_
  rw [inside_full hfull, inside_full hfull, h.surf]

theorem SameSurfaces.tensor (hfull : FullEllipsoid cfg) {e e' : Ellipsoid} (h : SameSurfaces e e') :
    tensorOf cfg e = tensorOf cfg e' := by
  unfold tensorOf
  rw [h.members hfull]
  congr 1
  funext p
  rw [h.surf]

theorem tensorOf_symm (e : Ellipsoid) (i j : Fin 3) : tensorOf cfg e i j = tensorOf cfg e j i := by
  unfold tensorOf massTensor
  congr 2
  apply List.map_congr_left
  intro p _
  ring

theorem PrincipalAxes.principal {e e' : Ellipsoid} (h : PrincipalAxes cfg e e') :
    ∃ a b c, Principal (tensorOf cfg e) a b c e'.major e'.inter e'.minor ∧ e'.q = b / a ∧ e'.s = c / a := by
  obtain ⟨ho, a, b, c, h1, h2, h3, hq, hs, e1, e2, e3⟩ := h
  exact ⟨a, b, c, ⟨h1, h2, h3, ho, e1, e2, e3⟩, hq, hs⟩

/-- The surfaces of the next ellipsoid are determined. -/
theorem Principal.surfaces {t : Fin 3 → Fin 3 → ℝ} (hsym : ∀ i j, t i j = t j i) {a b c : ℝ}
    {x y z x' y' z' : Vec ℝ} (h : Principal t a b c x y z) (h' : Principal t a b c x' y' z') (v : Vec ℝ) :
    ellipsoidal2 x y z (b / a) (c / a) v = ellipsoidal2 x' y' z' (b / a) (c / a) v := by
  have hc := h.pos
  have hb : 0 < b := h.pos.trans_le h.cb
  have ha : 0 < a := hb.trans_le h.ba
  have hk := (spectral t hsym ![c ^ 2, b ^ 2, a ^ 2] ![c ^ 2, b ^ 2, a ^ 2] ![z', y', x'] ![z, y, x]
    (frame_reversed h'.axes) (frame_reversed h.axes)
    (by intro k; fin_cases k; exacts [h'.minor, h'.inter, h'.major])
    (by intro k; fin_cases k; exacts [h.minor, h.inter, h.major])
    ⟨pow_le_pow_left₀ hc.le h.cb 2, pow_le_pow_left₀ hb.le h.ba 2⟩
    ⟨pow_le_pow_left₀ hc.le h'.cb 2, pow_le_pow_left₀ hb.le h'.ba 2⟩).2 (fun l => a ^ 2 / l) v
  have hk' : a ^ 2 / c ^ 2 * dot z v ^ 2 + a ^ 2 / b ^ 2 * dot y v ^ 2 + a ^ 2 / a ^ 2 * dot x v ^ 2 =
      a ^ 2 / c ^ 2 * dot z' v ^ 2 + a ^ 2 / b ^ 2 * dot y' v ^ 2 + a ^ 2 / a ^ 2 * dot x' v ^ 2 := hk
  rw [div_self (pow_ne_zero 2 ha.ne'), one_mul, one_mul] at hk'
  unfold ellipsoidal2
  have r1 : ∀ w : ℝ, w / (b / a) ^ 2 = a ^ 2 / b ^ 2 * w := fun w => by field_simp
  have r2 : ∀ w : ℝ, w / (c / a) ^ 2 = a ^ 2 / c ^ 2 * w := fun w => by field_simp
  rw [r1, r1, r2, r2]
  linarith

/-- The next ellipsoid is determined by the surfaces of the last. -/
theorem step_unique (hfull : FullEllipsoid cfg) {e₁ e₂ e₁' e₂' : Ellipsoid} (h : SameSurfaces e₁ e₂)
    (h1 : PrincipalAxes cfg e₁ e₁') (h2 : PrincipalAxes cfg e₂ e₂') : SameSurfaces e₁' e₂' := by
  obtain ⟨a, b, c, p1, q1, s1⟩ := h1.principal
  obtain ⟨a', b', c', p2, q2, s2⟩ := h2.principal
  rw [← h.tensor hfull] at p2
  obtain ⟨rfl, rfl, rfl⟩ := p1.unique (tensorOf_symm e₁) p2
  refine ⟨by rw [q1, q2], by rw [s1, s2], fun v => ?_⟩
  rw [q1, s1, q2, s2]
  exact p1.surfaces (tensorOf_symm e₁) p2 v

theorem settled_same {e₁ e₂ e₁' e₂' : Ellipsoid} (h : SameSurfaces e₁ e₂) (h' : SameSurfaces e₁' e₂') :
    Settled cfg e₁ e₁' ↔ Settled cfg e₂ e₂' := by
  unfold Settled
  rw [h.q, h.s, h'.q, h'.s]

theorem reached_unique (hfull : FullEllipsoid cfg) : ∀ {n : Nat} {e₁ e₂ : Ellipsoid}, Reached cfg n e₁ → Reached cfg n e₂ →
    SameSurfaces e₁ e₂ := by
  intro n
  induction n with
  | zero =>
    intro e₁ e₂ h1 h2
    cases h1
    cases h2
    exact ⟨rfl, rfl, fun _ => rfl⟩
  | succ n ih =>
    intro e₁ e₂ h1 h2
    cases h1 with
    | step r1 _ a1 _ =>
      cases h2 with
      | step r2 _ a2 _ => exact step_unique hfull (ih r1 r2) a1 a2

theorem reached_before {n : Nat} {e : Ellipsoid} (h : Reached cfg n e) : ∀ m, m < n → ∃ e₁ e₂, Reached cfg m e₁ ∧
    PrincipalAxes cfg e₁ e₂ ∧ ¬ Settled cfg e₁ e₂ ∧ cfg.itMin ≤ ((members cfg e₁).length : Int) := by
  induction h with
  | sphere => intro m hm; omega
  | @step n e e' h enough axes unsettled ih =>
    intro m hm
    rcases Nat.lt_succ_iff_lt_or_eq.1 hm with hm | rfl
    · exact ih m hm
    · exact ⟨e, e', h, axes, unsettled, enough⟩

/-! ## The tensor at the true shape -/

open Classical in
/-- The tensor of the particles in the true ellipsoid has the true principal axes. -/
theorem Stratified.principal (h : Stratified cfg α β γ x y z) (hfull : FullEllipsoid cfg)
    (hne : ∃ p ∈ members cfg (trueShape α β γ x y z), Shapes.rel cfg p ≠ 0) :
    ∃ κ, 0 < κ ∧ Principal (tensorOf cfg (trueShape α β γ x y z)) (α * κ) (β * κ) (γ * κ) x y z := by
  have ha := h.alpha
  have hb := h.beta
  have hc := h.pos
  set U : Pt → Vec ℝ := unstretched cfg α β γ x y z with hU
  set w : ℝ → ℝ := fun r => if α ^ 2 * r < cfg.d ^ 2 then (if cfg.reduced then α ^ 2 * r else 1)⁻¹ else 0 with hw
  obtain ⟨k, hk⟩ := h.moments w
  set M := ((members cfg (trueShape α β γ x y z)).map fun p => p.m).sum with hM
  have hMpos : 0 < M := by
    obtain ⟨p, hp, -⟩ := hne
    apply List.sum_pos
    · simp only [List.mem_map]
      rintro _ ⟨p, hp, rfl⟩
      exact h.masses p (List.mem_of_mem_filter hp)
    · exact fun h => (List.ne_nil_of_mem hp) (List.map_eq_nil_iff.1 h)
  -- membership
  have hin : ∀ p, Inside cfg (trueShape α β γ x y z).major (trueShape α β γ x y z).inter (trueShape α β γ x y z).minor
      (trueShape α β γ x y z).q (trueShape α β γ x y z).s p ↔ α ^ 2 * dot (U p) (U p) < cfg.d ^ 2 := by
    intro p
    rw [inside_full hfull]
    show ellipsoidal2 x y z (β / α) (γ / α) (Shapes.rel cfg p) < _ ↔ _
    rw [h.radius]
  have sum_members : ∀ g : Pt → ℝ, ((members cfg (trueShape α β γ x y z)).map g).sum =
      (cfg.pts.map fun p => if α ^ 2 * dot (U p) (U p) < cfg.d ^ 2 then g p else 0).sum := by
    intro g
    unfold members
    induction cfg.pts with
    | nil => rfl
    | cons p l ih =>
      by_cases hp : α ^ 2 * dot (U p) (U p) < cfg.d ^ 2
      · rw [List.filter_cons, if_pos (decide_eq_true ((hin p).2 hp))]
        simp only [List.map_cons, List.sum_cons, if_pos hp, ih]
      · rw [List.filter_cons, if_neg (by simpa using fun hx => hp ((hin p).1 hx))]
        simp only [List.map_cons, List.sum_cons, if_neg hp, ih, zero_add]
  -- the entries of the tensor
  have entry : ∀ i j, tensorOf cfg (trueShape α β γ x y z) i j =
      (cfg.pts.map fun p => w (dot (U p) (U p)) * (p.m * Shapes.rel cfg p i * Shapes.rel cfg p j)).sum / M := by
    intro i j
    unfold tensorOf massTensor
    rw [sum_members]
    congr 2
    apply List.map_congr_left
    intro p hp
    have hpos := h.positions p hp
    have hi : p.src i - cfg.srcCenter i = Shapes.rel cfg p i := congrFun hpos i
    have hj : p.src j - cfg.srcCenter j = Shapes.rel cfg p j := congrFun hpos j
    rw [hi, hj]
    have hrad : ellipsoidal2 (trueShape α β γ x y z).major (trueShape α β γ x y z).inter (trueShape α β γ x y z).minor
      (trueShape α β γ x y z).q (trueShape α β γ x y z).s (Shapes.rel cfg p) = α ^ 2 * dot (U p) (U p) := h.radius p
    simp only [hw]
    rw [hrad]
    by_cases hlt : α ^ 2 * dot (U p) (U p) < cfg.d ^ 2
    · rw [if_pos hlt, if_pos hlt, div_eq_mul_inv, mul_comm]
    · rw [if_neg hlt, if_neg hlt, zero_mul]
  -- closed form of the tensor
  have closed : ∀ i j, tensorOf cfg (trueShape α β γ x y z) i j =
      k * (α ^ 2 * x i * x j + β ^ 2 * y i * y j + γ ^ 2 * z i * z j) / M := by
    intro i j
    rw [entry]
    congr 1
    have lin : ∀ l : List Pt, (l.map fun p => w (dot (U p) (U p)) * (p.m * Shapes.rel cfg p i * Shapes.rel cfg p j)).sum =
        α ^ 2 * x i * x j * (l.map fun p => w (dot (U p) (U p)) * (p.m * U p 0 * U p 0)).sum +
        β ^ 2 * y i * y j * (l.map fun p => w (dot (U p) (U p)) * (p.m * U p 1 * U p 1)).sum +
        γ ^ 2 * z i * z j * (l.map fun p => w (dot (U p) (U p)) * (p.m * U p 2 * U p 2)).sum +
        α * β * (x i * y j + y i * x j) * (l.map fun p => w (dot (U p) (U p)) * (p.m * U p 0 * U p 1)).sum +
        α * γ * (x i * z j + z i * x j) * (l.map fun p => w (dot (U p) (U p)) * (p.m * U p 0 * U p 2)).sum +
        β * γ * (y i * z j + z i * y j) * (l.map fun p => w (dot (U p) (U p)) * (p.m * U p 1 * U p 2)).sum := by
      intro l
      induction l with
      | nil => simp
      | cons p l ih =>
        simp only [List.map_cons, List.sum_cons]
        rw [ih, h.rel p i, h.rel p j]
        ring
    rw [lin, hk 0 0, hk 1 1, hk 2 2, hk 0 1, hk 0 2, hk 1 2]
    simp
    ring
  -- positive
  have hkpos : 0 < k := by
    have htr : (cfg.pts.map fun p => w (dot (U p) (U p)) * (p.m * dot (U p) (U p))).sum = 3 * k := by
      have lin : ∀ l : List Pt, (l.map fun p => w (dot (U p) (U p)) * (p.m * dot (U p) (U p))).sum =
          (l.map fun p => w (dot (U p) (U p)) * (p.m * U p 0 * U p 0)).sum +
          (l.map fun p => w (dot (U p) (U p)) * (p.m * U p 1 * U p 1)).sum +
          (l.map fun p => w (dot (U p) (U p)) * (p.m * U p 2 * U p 2)).sum := by
        intro l
        induction l with
        | nil => simp
        | cons p l ih =>
          simp only [List.map_cons, List.sum_cons]
          rw [ih]
          have : dot (U p) (U p) = U p 0 * U p 0 + U p 1 * U p 1 + U p 2 * U p 2 := rfl
          generalize w (dot (U p) (U p)) = wp
          rw [this]
          ring
      rw [lin, hk 0 0, hk 1 1, hk 2 2]
      simp
      ring
    obtain ⟨p, hp, hpne⟩ := hne
    have hpp : p ∈ cfg.pts := List.mem_of_mem_filter hp
    have hplt : α ^ 2 * dot (U p) (U p) < cfg.d ^ 2 := (hin p).1 (by simpa using (List.mem_filter.1 hp).2)
    have hUne : U p ≠ 0 := by
      intro h0
      apply hpne
      funext i
      rw [h.rel p i]
      show α * U p 0 * x i + β * U p 1 * y i + γ * U p 2 * z i = 0
      rw [h0]
      simp
    have hdot : 0 < dot (U p) (U p) := dot_self_pos hUne
    have wnn : ∀ v : Vec ℝ, 0 ≤ w (dot v v) := by
      intro v
      have hv : 0 ≤ dot v v := by unfold dot; nlinarith [mul_self_nonneg (v 0), mul_self_nonneg (v 1), mul_self_nonneg (v 2)]
      simp only [hw]
      split
      · apply inv_nonneg.2
        split
        · positivity
        · exact zero_le_one
      · exact le_refl _
    have hterm : 0 < w (dot (U p) (U p)) * (p.m * dot (U p) (U p)) := by
      refine mul_pos ?_ (mul_pos (h.masses p hpp) hdot)
      simp only [hw]
      rw [if_pos hplt]
      apply inv_pos.2
      split
      · positivity
      · exact one_pos
    have hle : w (dot (U p) (U p)) * (p.m * dot (U p) (U p)) ≤
        (cfg.pts.map fun p => w (dot (U p) (U p)) * (p.m * dot (U p) (U p))).sum := by
      apply List.single_le_sum
      · simp only [List.mem_map]
        rintro _ ⟨p', hp', rfl⟩
        have hv : 0 ≤ dot (U p') (U p') := by
          unfold dot; nlinarith [mul_self_nonneg (U p' 0), mul_self_nonneg (U p' 1), mul_self_nonneg (U p' 2)]
        exact mul_nonneg (wnn _) (mul_nonneg (h.masses p' hp').le hv)
      · exact List.mem_map_of_mem (f := fun p => w (dot (U p) (U p)) * (p.m * dot (U p) (U p))) hpp
    rw [htr] at hle
    linarith
  have hkM : 0 < k / M := div_pos hkpos hMpos
  have hsq : √(k / M) ^ 2 = k / M := Real.sq_sqrt hkM.le
  have hs : 0 < √(k / M) := Real.sqrt_pos.2 hkM
  obtain ⟨n1, n2, n3, o1, o2, o3⟩ := h.axes
  have o1' := dot_comm y x
  have o2' := dot_comm z x
  have o3' := dot_comm z y
  unfold dot at n1 n2 n3 o1 o2 o3 o1' o2' o3'
  refine ⟨√(k / M), hs, mul_pos hc hs, mul_le_mul_of_nonneg_right h.cb hs.le, mul_le_mul_of_nonneg_right h.ba hs.le, h.axes,
    ?_, ?_, ?_⟩
  · intro i
    rw [closed, closed, closed, mul_pow, hsq]
    field_simp
    linear_combination α ^ 2 * x i * n1 + β ^ 2 * y i * o1 + γ ^ 2 * z i * o2
  · intro i
    rw [closed, closed, closed, mul_pow, hsq]
    field_simp
    linear_combination α ^ 2 * x i * o1 + β ^ 2 * y i * n2 + γ ^ 2 * z i * o3
  · intro i
    rw [closed, closed, closed, mul_pow, hsq]
    field_simp
    linear_combination α ^ 2 * x i * o2 + β ^ 2 * y i * o3 + γ ^ 2 * z i * n3

/-! ## C165 -/

/-- C165 (proved part). The true shape is a fixed point for ellipsoids; missing: shells of constant thickness, for which this is false
(`C165_shells_refuted`).  If `e` is (or has the same surfaces as) the true shape of a stretched round object, the
next iteration, with either kind of weights, finds exactly the true axis ratios and, if they differ, the true axes, and settles for
every tolerance. -/
theorem C165_fixed_partial (h : Stratified cfg α β γ x y z) (hfull : FullEllipsoid cfg) (htol : 0 ≤ cfg.tol)
    (hne : ∃ p ∈ members cfg (trueShape α β γ x y z), rel cfg p ≠ 0)
    (e e' : Ellipsoid) (he : SameSurfaces e (trueShape α β γ x y z)) (hp : PrincipalAxes cfg e e') :
    e'.q = β / α ∧ e'.s = γ / α ∧ SameSurfaces e' (trueShape α β γ x y z) ∧ Settled cfg e e' ∧
    (γ < β → β < α → UpToSign e'.major x ∧ UpToSign e'.inter y ∧ UpToSign e'.minor z) := by
  have ha := h.alpha
  have hb := h.beta
  have hc := h.pos
  obtain ⟨κ, hκ, hP⟩ := h.principal hfull hne
  obtain ⟨a, b, c, p1, q1, s1⟩ := hp.principal
  have ht := he.tensor hfull
  rw [ht] at p1
  obtain ⟨rfl, rfl, rfl⟩ := hP.unique (tensorOf_symm _) p1
  rw [mul_div_mul_right _ _ hκ.ne'] at q1 s1
  refine ⟨q1, s1, ⟨q1, s1, fun v => ?_⟩, ?_, fun h1 h2 => ?_⟩
  · have := p1.surfaces (tensorOf_symm _) hP v
    rw [mul_div_mul_right _ _ hκ.ne', mul_div_mul_right _ _ hκ.ne'] at this
    rw [q1, s1]
    exact this
  · have hq : e.q = β / α := he.q
    have hs : e.s = γ / α := he.s
    unfold Settled
    rw [q1, s1, hq, hs, sub_self, sub_self, abs_zero]
    exact ⟨mul_nonneg htol (div_pos hb ha).le, mul_nonneg htol (div_pos hc ha).le⟩
  · exact hP.unique_axes (tensorOf_symm _) p1 (mul_lt_mul_of_pos_right h1 hκ) (mul_lt_mul_of_pos_right h2 hκ)

theorem not_planar {e e' : Ellipsoid} (h : PrincipalAxes cfg e e') (v : Vec ℝ) (hv : v ≠ 0)
    (hplane : ∀ p ∈ members cfg e, dot v (fun i => p.src i - cfg.srcCenter i) = 0) : False := by
  obtain ⟨a, b, c, hP, -, -⟩ := h.principal
  have hc := hP.pos
  have hb : 0 < b := hc.trans_le hP.cb
  have ha : 0 < a := hb.trans_le hP.ba
  set t := tensorOf cfg e with ht
  have hsym : ∀ i j, t i j = t j i := tensorOf_symm e
  have hzero : ∀ i, t i 0 * v 0 + t i 1 * v 1 + t i 2 * v 2 = 0 := by
    intro i
    rw [ht]
    unfold tensorOf massTensor
    rw [div_mul_eq_mul_div, div_mul_eq_mul_div, div_mul_eq_mul_div, ← add_div, ← add_div]
    generalize hw : (fun p : Pt => if cfg.reduced = true then ellipsoidal2 e.major e.inter e.minor e.q e.s (rel cfg p) else 1) = w
    have key : ∀ l : List Pt, (∀ p ∈ l, dot v (fun i => p.src i - cfg.srcCenter i) = 0) →
        (l.map fun p => p.m * (p.src i - cfg.srcCenter i) * (p.src 0 - cfg.srcCenter 0) / w p).sum * v 0 +
        (l.map fun p => p.m * (p.src i - cfg.srcCenter i) * (p.src 1 - cfg.srcCenter 1) / w p).sum * v 1 +
        (l.map fun p => p.m * (p.src i - cfg.srcCenter i) * (p.src 2 - cfg.srcCenter 2) / w p).sum * v 2 = 0 := by
      intro l hl
      induction l with
      | nil => simp
      | cons p l ih =>
        have h1 := ih fun p' hp' => hl p' (List.mem_cons_of_mem _ hp')
        have h2 := hl p (List.mem_cons_self)
        unfold dot at h2
        simp only [List.map_cons, List.sum_cons]
        linear_combination h1 + p.m * (p.src i - cfg.srcCenter i) / w p * h2
    rw [key _ hplane, zero_div]
  have orth : ∀ (l : ℝ) (w : Vec ℝ), l ≠ 0 → IsEigenvector t l w → dot w v = 0 := by
    intro l w hl hw
    have w0 := hw 0
    have w1 := hw 1
    have w2 := hw 2
    have z0 := hzero 0
    have z1 := hzero 1
    have z2 := hzero 2
    rw [hsym 1 0] at w1
    rw [hsym 2 0, hsym 2 1] at w2
    rw [hsym 1 0] at z1
    rw [hsym 2 0, hsym 2 1] at z2
    have : l * dot w v = 0 := by
      unfold dot
      linear_combination -(v 0 * w0 + v 1 * w1 + v 2 * w2) + w 0 * z0 + w 1 * z1 + w 2 * z2
    exact (mul_eq_zero.1 this).resolve_left hl
  have h1 := orth _ _ (pow_ne_zero 2 ha.ne') hP.major
  have h2 := orth _ _ (pow_ne_zero 2 hb.ne') hP.inter
  have h3 := orth _ _ (pow_ne_zero 2 hc.ne') hP.minor
  have h4 := parseval hP.axes v
  rw [h1, h2, h3] at h4
  have h5 := dot_self_pos hv
  linarith

/-- C165. If the iteration comes, after fewer than `IT_WALL` steps, to an ellipsoid with the surfaces of the true shape and
enough particles in it, then the run reports the true shape: neither an exception nor a gap nor another shape. -/
theorem C165_reported_partial (h : Stratified cfg α β γ x y z) (hfull : FullEllipsoid cfg)
    (morph : Morph) (sc : Scratch) (hf : Fits cfg sc) (hsol : GoodSolver cfg.solver)
    (h0 : 0 ≤ cfg.tol) (htol : cfg.tol < 1)
    (hred : cfg.reduced = true → ∀ p ∈ cfg.pts, rel cfg p ≠ 0)
    (hne : ∃ p ∈ members cfg (trueShape α β γ x y z), rel cfg p ≠ 0)
    (n : Nat) (e : Ellipsoid) (hr : Reached cfg n e) (he : SameSurfaces e (trueShape α β γ x y z))
    (hn : (n : Int) < cfg.wall) (hmin : cfg.itMin ≤ ((members cfg (trueShape α β γ x y z)).length : Int))
    (fuel : Nat) (hfuel : cfg.wall.toNat + 1 ≤ fuel) :
    ∃ m sc', runAlgo fuel cfg morph sc = some (some (m, sc')) ∧ m.d = cfg.d ∧ m.q = β / α ∧ m.s = γ / α ∧
      (γ < β → β < α → UpToSign m.major x ∧ UpToSign m.inter y ∧ UpToSign m.minor z) := by
  -- no iteration goes beyond
  have later : ∀ n' e', Reached cfg n' e' → n' ≤ n := by
    intro n' e' hr'
    by_contra hlt
    obtain ⟨e₁, e₂, r1, p1, u1, -⟩ := reached_before hr' n (by omega)
    have hs := reached_unique hfull r1 hr
    have hs' : SameSurfaces e₁ (trueShape α β γ x y z) :=
      ⟨hs.q.trans he.q, hs.s.trans he.s, fun v => (hs.surf v).trans (he.surf v)⟩
    exact u1 (C165_fixed_partial h hfull h0 hne e₁ e₂ hs' p1).2.2.2.1
  have same : ∀ e', Reached cfg n e' → SameSurfaces e' (trueShape α β γ x y z) := by
    intro e' hr'
    have hs := reached_unique hfull hr' hr
    exact ⟨hs.q.trans he.q, hs.s.trans he.s, fun v => (hs.surf v).trans (he.surf v)⟩
  have enough : ∀ n' e', Reached cfg n' e' → cfg.itMin ≤ ((members cfg e').length : Int) := by
    intro n' e' hr'
    rcases Nat.lt_or_ge n' n with hlt | hge
    · obtain ⟨e₁, e₂, r1, p1, u1, m1⟩ := reached_before hr n' hlt
      rw [(reached_unique hfull hr' r1).members hfull]
      exact m1
    · obtain rfl : n' = n := le_antisymm (later n' e' hr') hge
      rw [(same e' hr').members hfull]
      exact hmin
  rcases C105_outcome cfg morph sc hf hsol h.masses htol fuel hfuel with ⟨m, sc', hrun, hc⟩ | ⟨-, -, hu⟩ | ⟨-, hd⟩
  · obtain ⟨n', e₁, e₂, r1, -, -, p1, st, rfl⟩ := hc
    have hn' := later n' e₁ r1
    rcases Nat.lt_or_ge n' n with hlt | hge
    · exfalso
      obtain ⟨e₃, e₄, r3, p3, u3, -⟩ := reached_before hr n' hlt
      have hs := reached_unique hfull r1 r3
      exact u3 ((settled_same hs (step_unique hfull hs p1 p3)).1 st)
    · obtain rfl : n' = n := le_antisymm hn' hge
      obtain ⟨k1, k2, -, -, k3⟩ := C165_fixed_partial h hfull h0 hne e₁ e₂ (same e₁ r1) p1
      exact ⟨_, sc', hrun, rfl, k1, k2, k3⟩
  · exfalso
    obtain ⟨n', e₁, r1, hbad⟩ := hu
    have := later n' e₁ r1
    have := enough n' e₁ r1
    omega
  · exfalso
    obtain ⟨n', e₁, r1, -, -, hbad⟩ := hd
    rcases hbad with ⟨v, hv, hplane⟩ | ⟨hr', p, hp, hp0⟩ | ⟨δ, e', hδ, hd, -⟩
    · rcases Nat.lt_or_ge n' n with hlt | hge
      · obtain ⟨e₃, e₄, r3, p3, -, -⟩ := reached_before hr n' hlt
        have hmem := (reached_unique hfull r1 r3).members hfull
        rw [hmem] at hplane
        exact not_planar p3 v hv hplane
      · obtain rfl : n' = n := le_antisymm (later n' e₁ r1) hge
        rw [(same e₁ r1).members hfull] at hplane
        obtain ⟨κ, hκ, hP⟩ := h.principal hfull hne
        have hκ' := hκ.ne'
        exact not_planar (e' := trueShape α β γ x y z) ⟨h.axes, α * κ, β * κ, γ * κ, hP.pos, hP.cb, hP.ba,
          (mul_div_mul_right _ _ hκ').symm, (mul_div_mul_right _ _ hκ').symm, hP.major, hP.inter, hP.minor⟩ v hv hplane
    · exact hred hr' p (List.mem_of_mem_filter hp) hp0
    · exact hd (hfull δ hδ)

/-! ## Examples and the refutation for shells -/

/-- The corners of an octahedron of radius `ρ` stretched by `α, β, γ` along the coordinate axes, with unit masses. -/
noncomputable def octahedron (α β γ ρ : ℝ) : List Pt :=
  [![α * ρ, 0, 0], ![-(α * ρ), 0, 0], ![0, β * ρ, 0], ![0, -(β * ρ), 0], ![0, 0, γ * ρ], ![0, 0, -(γ * ρ)]].map
    fun v => ⟨v, v, 1⟩

/-- An object made of such octahedra. -/
noncomputable def octahedra (sol : Solver) (α β γ d : ℝ) (deltaD : Option ℝ) (reduced : Bool) (rs : List ℝ) : Config :=
  { pts := rs.flatMap (octahedron α β γ), center := 0, srcCenter := 0, d := d, deltaD := deltaD, tol := 1 / 100, wall := 10,
    itMin := 6, reduced := reduced, solver := sol }

theorem unit_axes : Orthonormal ![1, 0, 0] ![0, 1, 0] ![0, 0, 1] := by
  refine ⟨?_, ?_, ?_, ?_, ?_, ?_⟩ <;> simp [dot]

theorem octahedra_stratified (sol : Solver) (α β γ d : ℝ) (deltaD : Option ℝ) (reduced : Bool) (rs : List ℝ) (hγ : 0 < γ)
    (hγβ : γ ≤ β) (hβα : β ≤ α) :
    Stratified (octahedra sol α β γ d deltaD reduced rs) α β γ ![1, 0, 0] ![0, 1, 0] ![0, 0, 1] := by
  have hβ : β ≠ 0 := (hγ.trans_le hγβ).ne'
  have hα : α ≠ 0 := (hγ.trans_le (hγβ.trans hβα)).ne'
  have hγ' := hγ.ne'
  refine ⟨hγ, hγβ, hβα, unit_axes, ?_, ?_, ?_⟩
  · intro r
    unfold surfaceMoment
    set cfg := octahedra sol α β γ d deltaD reduced rs with hcfg
    have hrel : ∀ v : Vec ℝ, rel cfg ⟨v, v, 1⟩ = v := by
      intro v; funext i; show v i - (0 : Vec ℝ) i = v i; simp
    have hpts : cfg.pts = rs.flatMap (octahedron α β γ) := rfl
    rw [hpts]
    generalize rs = l
    have hU : ∀ v : Vec ℝ, unstretched cfg α β γ ![1, 0, 0] ![0, 1, 0] ![0, 0, 1] ⟨v, v, 1⟩ = ![v 0 / α, v 1 / β, v 2 / γ] := by
      intro v
      unfold unstretched
      rw [hrel]
      simp [dot]
    induction l with
    | nil => exact ⟨0, fun i j => by simp⟩
    | cons ρ l ih =>
      obtain ⟨κ, hκ⟩ := ih
      by_cases hr : ρ ^ 2 = r
      · refine ⟨2 * ρ ^ 2 + κ, fun i j => ?_⟩
        rw [List.flatMap_cons, List.filter_append, List.map_append, List.sum_append, hκ i j]
        have : (octahedron α β γ ρ).filter (fun p => decide (dot (unstretched cfg α β γ ![1, 0, 0] ![0, 1, 0] ![0, 0, 1] p)
            (unstretched cfg α β γ ![1, 0, 0] ![0, 1, 0] ![0, 0, 1] p) = r)) = octahedron α β γ ρ := by
          rw [List.filter_eq_self]
          intro p hp
          refine decide_eq_true ?_
          obtain ⟨v, hv, rfl⟩ := List.mem_map.1 hp
          rw [hU]
          simp only [List.mem_cons, List.not_mem_nil, or_false] at hv
          rcases hv with rfl | rfl | rfl | rfl | rfl | rfl <;> rw [← hr] <;> simp [dot] <;> field_simp
        rw [this]
        unfold octahedron
        simp only [List.map_cons, List.map_nil, List.sum_cons, List.sum_nil, hU]
        fin_cases i <;> fin_cases j <;> simp <;> field_simp <;> ring
      · refine ⟨κ, fun i j => ?_⟩
        rw [List.flatMap_cons, List.filter_append, List.map_append, List.sum_append, hκ i j]
        have : (octahedron α β γ ρ).filter (fun p => decide (dot (unstretched cfg α β γ ![1, 0, 0] ![0, 1, 0] ![0, 0, 1] p)
            (unstretched cfg α β γ ![1, 0, 0] ![0, 1, 0] ![0, 0, 1] p) = r)) = [] := by
          rw [List.filter_eq_nil_iff]
          intro p hp hdec
          have hdec := of_decide_eq_true hdec
          obtain ⟨v, hv, rfl⟩ := List.mem_map.1 hp
          rw [hU] at hdec
          apply hr
          rw [← hdec]
          simp only [List.mem_cons, List.not_mem_nil, or_false] at hv
          rcases hv with rfl | rfl | rfl | rfl | rfl | rfl <;> simp [dot] <;> field_simp
        rw [this]
        simp
  · intro p hp
    obtain ⟨ρ, -, hp⟩ := List.mem_flatMap.1 hp
    obtain ⟨v, -, rfl⟩ := List.mem_map.1 hp
    rfl
  · intro p hp
    obtain ⟨ρ, -, hp⟩ := List.mem_flatMap.1 hp
    obtain ⟨v, -, rfl⟩ := List.mem_map.1 hp
    exact one_pos

open Classical in
/-- The hypotheses of `C165_reported_partial` are met: an octahedron stretched to axis ratios 3/4 and 1/2; its true shape is reached in
one step. -/
example (sol : Solver) : ∃ cfg : Config, cfg.solver = sol ∧ Stratified cfg 2 (3 / 2) 1 ![1, 0, 0] ![0, 1, 0] ![0, 0, 1] ∧
    FullEllipsoid cfg ∧ (∃ p ∈ members cfg (trueShape 2 (3 / 2) 1 ![1, 0, 0] ![0, 1, 0] ![0, 0, 1]), rel cfg p ≠ 0) ∧
    Reached cfg 1 (trueShape 2 (3 / 2) 1 ![1, 0, 0] ![0, 1, 0] ![0, 0, 1]) ∧
    cfg.itMin ≤ ((members cfg (trueShape 2 (3 / 2) 1 ![1, 0, 0] ![0, 1, 0] ![0, 0, 1])).length : Int) := by
  set cfg := octahedra sol 2 (3 / 2) 1 5 none false [1] with hcfg
  set e := trueShape 2 (3 / 2) 1 ![1, 0, 0] ![0, 1, 0] ![0, 0, 1] with he
  have hst : Stratified cfg 2 (3 / 2) 1 ![1, 0, 0] ![0, 1, 0] ![0, 0, 1] :=
    octahedra_stratified sol 2 (3 / 2) 1 5 none false [1] (by norm_num) (by norm_num) (by norm_num)
  have hfull : FullEllipsoid cfg := fun δ hδ => by cases hδ
  have hpts : cfg.pts = octahedron 2 (3 / 2) 1 1 := by
    show [1].flatMap _ = _
    simp
  have hrel : ∀ v : Vec ℝ, rel cfg ⟨v, v, 1⟩ = v := by
    intro v; funext i; show v i - (0 : Vec ℝ) i = v i; simp
  have hd : cfg.d = 5 := rfl
  have m1 : members cfg sphere = cfg.pts := by
    unfold members
    rw [List.filter_eq_self]
    intro p hp
    refine decide_eq_true ((inside_full hfull sphere p).2 ?_)
    rw [hpts] at hp
    obtain ⟨v, hv, rfl⟩ := List.mem_map.1 hp
    rw [hrel, ellipsoidal2_sphere, hd]
    simp only [List.mem_cons, List.not_mem_nil, or_false] at hv
    rcases hv with rfl | rfl | rfl | rfl | rfl | rfl <;> simp [dot] <;> norm_num
  have m2 : members cfg e = cfg.pts := by
    unfold members
    rw [List.filter_eq_self]
    intro p hp
    refine decide_eq_true ((inside_full hfull e p).2 ?_)
    rw [hpts] at hp
    obtain ⟨v, hv, rfl⟩ := List.mem_map.1 hp
    rw [hrel, hd]
    show ellipsoidal2 ![1, 0, 0] ![0, 1, 0] ![0, 0, 1] (3 / 2 / 2) (1 / 2) v < _
    simp only [List.mem_cons, List.not_mem_nil, or_false] at hv
    rcases hv with rfl | rfl | rfl | rfl | rfl | rfl <;> simp [ellipsoidal2, dot] <;> norm_num
  have hne : ∃ p ∈ members cfg e, rel cfg p ≠ 0 := by
    rw [m2, hpts]
    refine ⟨⟨![2 * 1, 0, 0], ![2 * 1, 0, 0], 1⟩, by simp [octahedron], ?_⟩
    rw [hrel]
    intro h0
    have := congrFun h0 0
    simp at this
  have hten : tensorOf cfg sphere = tensorOf cfg e := by
    unfold tensorOf
    rw [m1, m2]
    rfl
  obtain ⟨κ, hκ, hP⟩ := hst.principal hfull hne
  have hlen : cfg.pts.length = 6 := by rw [hpts]; rfl
  refine ⟨cfg, rfl, hst, hfull, hne, ?_, ?_⟩
  · refine .step .sphere ?_ ⟨hst.axes, 2 * κ, 3 / 2 * κ, 1 * κ, hP.pos, hP.cb, hP.ba,
      (mul_div_mul_right _ _ hκ.ne').symm, (mul_div_mul_right _ _ hκ.ne').symm, ?_, ?_, ?_⟩ ?_
    · rw [m1, hlen]; show (6 : Int) ≤ _; norm_num
    · rw [hten]; exact hP.major
    · rw [hten]; exact hP.inter
    · rw [hten]; exact hP.minor
    · rintro ⟨h1, -⟩
      have hq : e.q = 3 / 2 / 2 := rfl
      have hs : sphere.q = 1 := rfl
      have ht : cfg.tol = 1 / 100 := rfl
      rw [hq, hs, ht] at h1
      norm_num [abs_le] at h1
  · rw [m2, hlen]; show (6 : Int) ≤ _; norm_num

open Classical in
/-- C165 (refutation): for shells of constant thickness the true shape is not a fixed point.  Two octahedra, stretched to axis ratios
1/2, in a shell of semi-major axis 2 and thickness 1/2: starting from the true shape the next axis ratio is 5/8. -/
theorem C165_shells_refuted (sol : Solver) : ∃ cfg : Config, cfg.solver = sol ∧ cfg.d = 2 ∧ cfg.deltaD = some (1 / 2) ∧
    Stratified cfg 2 1 1 ![1, 0, 0] ![0, 1, 0] ![0, 0, 1] ∧
    (∃ e', PrincipalAxes cfg (trueShape 2 1 1 ![1, 0, 0] ![0, 1, 0] ![0, 0, 1]) e') ∧
    ∀ e', PrincipalAxes cfg (trueShape 2 1 1 ![1, 0, 0] ![0, 1, 0] ![0, 0, 1]) e' →
      e'.q = 5 / 8 ∧ ¬ Settled cfg (trueShape 2 1 1 ![1, 0, 0] ![0, 1, 0] ![0, 0, 1]) e' := by
  set cfg := octahedra sol 2 1 1 2 (some (1 / 2)) false [4 / 5, 3 / 5] with hcfg
  set e := trueShape 2 1 1 ![1, 0, 0] ![0, 1, 0] ![0, 0, 1] with he
  have hst : Stratified cfg 2 1 1 ![1, 0, 0] ![0, 1, 0] ![0, 0, 1] :=
    octahedra_stratified sol 2 1 1 2 (some (1 / 2)) false [4 / 5, 3 / 5] (by norm_num) (by norm_num) (by norm_num)
  have hpts : cfg.pts = octahedron 2 1 1 (4 / 5) ++ octahedron 2 1 1 (3 / 5) := by
    show [4 / 5, 3 / 5].flatMap _ = _
    simp
  have hrel : ∀ v : Vec ℝ, rel cfg ⟨v, v, 1⟩ = v := by
    intro v; funext i; show v i - (0 : Vec ℝ) i = v i; simp
  have hin : ∀ v : Vec ℝ, Inside cfg e.major e.inter e.minor e.q e.s ⟨v, v, 1⟩ ↔
      v 0 ^ 2 + 4 * v 1 ^ 2 + 4 * v 2 ^ 2 < 4 ∧ 9 ≤ 4 * v 0 ^ 2 + 36 * v 1 ^ 2 + 36 * v 2 ^ 2 := by
    intro v
    unfold Inside
    rw [hrel]
    have e0 : dot e.major v = v 0 := by simp [he, trueShape, dot]
    have e1 : dot e.inter v = v 1 := by simp [he, trueShape, dot]
    have e2 : dot e.minor v = v 2 := by simp [he, trueShape, dot]
    have hq : e.q = 1 / 2 := rfl
    have hs : e.s = 1 / 2 := rfl
    have hd : cfg.d = 2 := rfl
    have hδ : cfg.deltaD = some (1 / 2) := rfl
    unfold ellipsoidal2
    rw [e0, e1, e2, hq, hs, hd, hδ]
    constructor
    · rintro ⟨h1, h2⟩
      have h2 := h2 _ rfl (by norm_num)
      norm_num at h1 h2
      constructor <;> linarith
    · rintro ⟨h1, h2⟩
      refine ⟨by norm_num; linarith, ?_⟩
      intro δ hδ' _
      obtain rfl := Option.some.inj hδ'
      norm_num
      linarith
  have hmem : members cfg e = [![8 / 5, 0, 0], ![-(8 / 5), 0, 0], ![0, 4 / 5, 0], ![0, -(4 / 5), 0], ![0, 0, 4 / 5], ![0, 0, -(4 / 5)],
      ![0, 3 / 5, 0], ![0, -(3 / 5), 0], ![0, 0, 3 / 5], ![0, 0, -(3 / 5)]].map fun v => (⟨v, v, 1⟩ : Pt) := by
    unfold members
    rw [hpts]
    unfold octahedron
    rw [← List.map_append, List.filter_map]
    congr 1
    simp only [Function.comp_def, hin]
    rw [show ((2 : ℝ) * (4 / 5)) = 8 / 5 by norm_num, show ((2 : ℝ) * (3 / 5)) = 6 / 5 by norm_num, one_mul, one_mul]
    simp only [List.cons_append, List.nil_append, List.filter_cons, List.filter_nil, vec3_0, vec3_1, vec3_2]
    norm_num
  have hten : ∀ i j, tensorOf cfg e i j = if i = j then (if i = 0 then 64 / 125 else 1 / 5) else 0 := by
    intro i j
    unfold tensorOf massTensor
    rw [hmem]
    have hr : cfg.reduced = false := rfl
    have hc : cfg.srcCenter = 0 := rfl
    rw [hr, hc]
    simp only [List.map_cons, List.map_nil, List.sum_cons, List.sum_nil, Pi.zero_apply, sub_zero]
    fin_cases i <;> fin_cases j <;> simp <;> norm_num
  have s1 : √(64 / 125 : ℝ) ^ 2 = 64 / 125 := Real.sq_sqrt (by norm_num)
  have s2 : √(1 / 5 : ℝ) ^ 2 = 1 / 5 := Real.sq_sqrt (by norm_num)
  have hP : Principal (tensorOf cfg e) (√(64 / 125)) (√(1 / 5)) (√(1 / 5)) ![1, 0, 0] ![0, 1, 0] ![0, 0, 1] := by
    refine ⟨Real.sqrt_pos.2 (by norm_num), le_refl _, Real.sqrt_le_sqrt (by norm_num), unit_axes, ?_, ?_, ?_⟩
    · intro i; rw [s1, hten, hten, hten]; fin_cases i <;> simp
    · intro i; rw [s2, hten, hten, hten]; fin_cases i <;> simp
    · intro i; rw [s2, hten, hten, hten]; fin_cases i <;> simp
  have hratio : √(1 / 5 : ℝ) / √(64 / 125) = 5 / 8 := by
    rw [← Real.sqrt_div (by norm_num), show (1 / 5 / (64 / 125) : ℝ) = (5 / 8) ^ 2 by norm_num]
    exact Real.sqrt_sq (by norm_num)
  refine ⟨cfg, rfl, rfl, rfl, hst, ⟨⟨![1, 0, 0], ![0, 1, 0], ![0, 0, 1], _, _⟩, hP.axes, _, _, _, hP.pos, hP.cb, hP.ba, rfl, rfl,
    hP.major, hP.inter, hP.minor⟩, ?_⟩
  intro e' hp
  obtain ⟨a, b, c, p1, q1, -⟩ := hp.principal
  obtain ⟨rfl, rfl, rfl⟩ := hP.unique (tensorOf_symm _) p1
  have hq : e'.q = 5 / 8 := q1.trans hratio
  refine ⟨hq, ?_⟩
  rintro ⟨h1, -⟩
  have hq' : e.q = 1 / 2 := rfl
  have ht : cfg.tol = 1 / 100 := rfl
  rw [hq, hq', ht] at h1
  norm_num [abs_le] at h1

end Verif.Shapes
