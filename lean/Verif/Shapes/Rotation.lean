import Verif.Shapes.Spectral
import Verif.Shapes.Props
import Verif.Shapes.Objects

/-!
# Rotated objects and other eigenvalue routines (C114)
-/

namespace Verif.Shapes

open Matrix

/-! ## Specification -/

/-- The particle after a rotation (or reflection) `R`: position and vector entering the tensor are
turned. -/
def turnPt (R : Matrix (Fin 3) (Fin 3) ℝ) (p : Pt) : Pt := ⟨R *ᵥ p.x, R *ᵥ p.src, p.m⟩

/-- The object after a rotation (or reflection), analysed with another eigenvalue routine. -/
def turn (R : Matrix (Fin 3) (Fin 3) ℝ) (sol : Solver) (cfg : Config) : Config :=
  { cfg with
    pts := cfg.pts.map (turnPt R)
    center := R *ᵥ cfg.center
    srcCenter := R *ᵥ cfg.srcCenter
    solver := sol }

/-- The same vector up to its sign. -/
def UpToSign (u v : Vec ℝ) : Prop := u = v ∨ u = -v

/-- `m'` describes the ellipsoid of `m` after the rotation: same size and axis ratios, the same
ellipsoidal radius for corresponding points, and corresponding axes unless two axes have equal length
(then their directions within the circle are arbitrary). -/
structure SameShape (R : Matrix (Fin 3) (Fin 3) ℝ) (m m' : Morph) : Prop where
  d : m'.d = m.d
  q : m'.q = m.q
  s : m'.s = m.s
  ellipsoid : ∀ y, ellipsoidal2 m'.major m'.inter m'.minor m.q m.s (R *ᵥ y) =
    ellipsoidal2 m.major m.inter m.minor m.q m.s y
  axes : 0 < m.s → m.s < m.q → m.q < 1 →
    UpToSign m'.major (R *ᵥ m.major) ∧ UpToSign m'.inter (R *ᵥ m.inter) ∧
      UpToSign m'.minor (R *ᵥ m.minor)

/-- Two runs agree: both are still running, both failed, or both gave a shape, and the shapes agree. -/
inductive Agree (R : Matrix (Fin 3) (Fin 3) ℝ) : Option (Option Morph) → Option (Option Morph) → Prop
  | running : Agree R none none
  | failed : Agree R (some none) (some none)
  | shape (m m' : Morph) (h : SameShape R m m') : Agree R (some (some m)) (some (some m'))

/-! ## Tensor -/

theorem pureTensor_closed (cfg : Config) (sel : Sel) :
    ((∀ pr ∈ sel, (if cfg.reduced then (sel.map fun pr => pr.1.m).sum * pr.2 ^ 2
        else (sel.map fun pr => pr.1.m).sum) ≠ 0) ∧ pureTensor cfg sel = some (selTensor cfg sel)) ∨
    ((∃ pr ∈ sel, (if cfg.reduced then (sel.map fun pr => pr.1.m).sum * pr.2 ^ 2
        else (sel.map fun pr => pr.1.m).sum) = 0) ∧ pureTensor cfg sel = none) := by
  by_cases h : ∀ pr ∈ sel, (if cfg.reduced then (sel.map fun pr => pr.1.m).sum * pr.2 ^ 2
        else (sel.map fun pr => pr.1.m).sum) ≠ 0
  · left
    refine ⟨h, ?_⟩
    have hs : ∀ i j, ∀ pr ∈ sel,
        (tensorTerm cfg (sel.map fun pr => pr.1.m).sum pr.1 pr.2 i j).isSome := by
      intro i j pr hpr
      unfold tensorTerm
      rw [cdiv_of_ne (h pr hpr)]
      rfl
    cases ht : pureTensor cfg sel with
    | some t => rw [pureTensor_some ht]
    | none =>
      exfalso
      unfold pureTensor at ht
      simp only [pureEntry_closed, if_pos (hs _ _), Option.bind_eq_bind, Option.bind_some] at ht
      cases ht
  · right
    push Not at h
    refine ⟨h, ?_⟩
    obtain ⟨pr, hpr, h0⟩ := h
    unfold pureTensor
    dsimp only
    rw [pureEntry_closed, if_neg]
    · rfl
    · intro hall
      have := hall pr hpr
      unfold tensorTerm cdiv at this
      rw [if_pos h0] at this
      cases this

section
variable {R : Matrix (Fin 3) (Fin 3) ℝ} (hR : Rᵀ * R = 1) (sol : Solver) (cfg : Config)

theorem mulVec_three (M : Matrix (Fin 3) (Fin 3) ℝ) (v : Vec ℝ) (i : Fin 3) :
    (M *ᵥ v) i = M i 0 * v 0 + M i 1 * v 1 + M i 2 * v 2 := by
  simp [Matrix.mulVec, dotProduct, Fin.sum_univ_three]

theorem turn_sub (x c : Vec ℝ) (i : Fin 3) : (R *ᵥ x) i - (R *ᵥ c) i = (R *ᵥ fun k => x k - c k) i := by
  rw [mulVec_three, mulVec_three, mulVec_three]; ring

include hR in
theorem dot_turn (u v : Vec ℝ) : dot (R *ᵥ u) (R *ᵥ v) = dot u v := by
  rw [dot_eq, dot_eq, Matrix.dotProduct_mulVec, Matrix.vecMul_mulVec, hR, Matrix.vecMul_one]

theorem dot_mulVec (u v : Vec ℝ) : dot u (R *ᵥ v) = dot (Rᵀ *ᵥ u) v := by
  rw [dot_eq, dot_eq, Matrix.dotProduct_mulVec, Matrix.mulVec_transpose]

theorem rel_turn (p : Pt) : rel (turn R sol cfg) (turnPt R p) = R *ᵥ rel cfg p := by
  funext i
  exact turn_sub p.x cfg.center i

include hR in
theorem dist2_turn (p : Pt) :
    Binning.dist2 (turn R sol cfg).center (turnPt R p).x = Binning.dist2 cfg.center p.x := by
  have h1 : ∀ (c x : Vec ℝ), Binning.dist2 c x = dot (fun k => x k - c k) (fun k => x k - c k) := by
    intro c x; unfold Binning.dist2 dot; ring
  rw [h1, h1]
  have : (fun k => (turnPt R p).x k - (turn R sol cfg).center k) = R *ᵥ fun k => p.x k - cfg.center k :=
    rel_turn sol cfg p
  rw [this, dot_turn hR]

include hR in
theorem radius0_turn (p : Pt) : radius0 (turn R sol cfg) (turnPt R p) = radius0 cfg p := by
  have h1 : ∀ (cfg : Config) (p : Pt), radius0 cfg p = √(Binning.dist2 cfg.center p.x) := by
    intro cfg p; unfold radius0 Binning.dist2; simp
  rw [h1, h1, dist2_turn hR]

include hR in
theorem initialTest_turn (p : Pt) : initialTest (turn R sol cfg) (turnPt R p) = initialTest cfg p := by
  unfold initialTest
  rw [dist2_turn hR]
  rfl

/-- The selection of the turned object. -/
def turnSel (R : Matrix (Fin 3) (Fin 3) ℝ) (sel : Sel) : Sel := sel.map fun pr => (turnPt R pr.1, pr.2)

theorem select_turn (pts : List Pt) (rs : List ℝ) (tests : List Bool) :
    select (pts.map (turnPt R)) rs tests = turnSel R (select pts rs tests) := by
  unfold select turnSel
  induction pts generalizing rs tests with
  | nil => rfl
  | cons p pts ih =>
    cases rs with
    | nil => rfl
    | cons r rs =>
      cases tests with
      | nil => simp
      | cons b tests =>
        simp only [List.map_cons, List.zip_cons_cons, List.filterMap_cons]
        cases b
        · simpa using ih rs tests
        · simpa using ih rs tests

theorem mass_turn (sel : Sel) :
    ((turnSel R sel).map fun pr => pr.1.m).sum = (sel.map fun pr => pr.1.m).sum := by
  unfold turnSel
  rw [List.map_map]
  rfl

theorem selTensor_turn (sel : Sel) :
    Matrix.of (selTensor (turn R sol cfg) (turnSel R sel)) = R * Matrix.of (selTensor cfg sel) * Rᵀ := by
  ext i j
  rw [Matrix.mul_apply, Fin.sum_univ_three]
  simp only [Matrix.mul_apply, Fin.sum_univ_three, Matrix.transpose_apply, Matrix.of_apply]
  unfold selTensor
  rw [mass_turn]
  generalize (sel.map fun pr => pr.1.m).sum = M
  have key : ((turnSel R sel).map fun pr => pr.1.m * (pr.1.src i - (turn R sol cfg).srcCenter i) *
      (pr.1.src j - (turn R sol cfg).srcCenter j) / weight (turn R sol cfg) pr.2).sum =
      (R i 0 * (sel.map fun pr => pr.1.m * (pr.1.src 0 - cfg.srcCenter 0) *
          (pr.1.src 0 - cfg.srcCenter 0) / weight cfg pr.2).sum +
        R i 1 * (sel.map fun pr => pr.1.m * (pr.1.src 1 - cfg.srcCenter 1) *
          (pr.1.src 0 - cfg.srcCenter 0) / weight cfg pr.2).sum +
        R i 2 * (sel.map fun pr => pr.1.m * (pr.1.src 2 - cfg.srcCenter 2) *
          (pr.1.src 0 - cfg.srcCenter 0) / weight cfg pr.2).sum) * R j 0 +
      (R i 0 * (sel.map fun pr => pr.1.m * (pr.1.src 0 - cfg.srcCenter 0) *
          (pr.1.src 1 - cfg.srcCenter 1) / weight cfg pr.2).sum +
        R i 1 * (sel.map fun pr => pr.1.m * (pr.1.src 1 - cfg.srcCenter 1) *
          (pr.1.src 1 - cfg.srcCenter 1) / weight cfg pr.2).sum +
        R i 2 * (sel.map fun pr => pr.1.m * (pr.1.src 2 - cfg.srcCenter 2) *
          (pr.1.src 1 - cfg.srcCenter 1) / weight cfg pr.2).sum) * R j 1 +
      (R i 0 * (sel.map fun pr => pr.1.m * (pr.1.src 0 - cfg.srcCenter 0) *
          (pr.1.src 2 - cfg.srcCenter 2) / weight cfg pr.2).sum +
        R i 1 * (sel.map fun pr => pr.1.m * (pr.1.src 1 - cfg.srcCenter 1) *
          (pr.1.src 2 - cfg.srcCenter 2) / weight cfg pr.2).sum +
        R i 2 * (sel.map fun pr => pr.1.m * (pr.1.src 2 - cfg.srcCenter 2) *
          (pr.1.src 2 - cfg.srcCenter 2) / weight cfg pr.2).sum) * R j 2 := by
    unfold turnSel
    induction sel with
    | nil => simp
    | cons pr sel ih =>
      simp only [List.map_cons, List.sum_cons]
      rw [ih]
      have e : ∀ k, (turnPt R pr.1).src k - (turn R sol cfg).srcCenter k =
          R k 0 * (pr.1.src 0 - cfg.srcCenter 0) + R k 1 * (pr.1.src 1 - cfg.srcCenter 1) +
            R k 2 * (pr.1.src 2 - cfg.srcCenter 2) := by
        intro k
        have := turn_sub (R := R) pr.1.src cfg.srcCenter k
        rw [mulVec_three R (fun k => pr.1.src k - cfg.srcCenter k)] at this
        exact this
      rw [e i, e j]
      have hw : weight (turn R sol cfg) pr.2 = weight cfg pr.2 := rfl
      have hm : (turnPt R pr.1).m = pr.1.m := rfl
      rw [hw, hm]
      ring
  rw [key]
  ring

/-! ## Diagonalisation -/

/-- Normalised eigenvectors. -/
noncomputable def unit (v : Vec ℝ) : Vec ℝ := fun i => v i / √(v 0 ^ 2 + v 1 ^ 2 + v 2 ^ 2)

theorem normalise_nonzero {v : Vec ℝ} (h : v ≠ 0) : normalise v = some (unit v) := by
  have hp := dot_self_pos h
  have hn : √(v 0 ^ 2 + v 1 ^ 2 + v 2 ^ 2) ≠ 0 := by
    apply (Real.sqrt_pos.2 _).ne'
    unfold dot at hp
    linarith [hp]
  unfold normalise
  simp only [cdiv_of_ne hn, Option.bind_eq_bind, Option.bind_some]
  congr 1
  funext i
  fin_cases i <;> rfl

theorem unit_frame {t : Tensor} {e : Eigen} (h : IsEigen t e) :
    Frame3 (fun k => unit (e.vec k)) ∧ ∀ k, IsEigenvector t (e.val k) (unit (e.vec k)) := by
  have hs : ∀ k, 0 < √(e.vec k 0 ^ 2 + e.vec k 1 ^ 2 + e.vec k 2 ^ 2) := by
    intro k
    apply Real.sqrt_pos.2
    have := dot_self_pos (h.nonzero k)
    unfold dot at this
    linarith
  have hd : ∀ k j, dot (unit (e.vec k)) (unit (e.vec j)) = dot (e.vec k) (e.vec j) /
      (√(e.vec k 0 ^ 2 + e.vec k 1 ^ 2 + e.vec k 2 ^ 2) *
        √(e.vec j 0 ^ 2 + e.vec j 1 ^ 2 + e.vec j 2 ^ 2)) := by
    intro k j
    have h1 := (hs k).ne'
    have h2 := (hs j).ne'
    unfold dot unit
    field_simp
  refine ⟨?_, ?_⟩
  · intro k j
    rw [hd]
    by_cases hk : k = j
    · subst hk
      rw [if_pos rfl, Real.mul_self_sqrt (by positivity)]
      have := dot_self_pos (h.nonzero k)
      have e1 : e.vec k 0 ^ 2 + e.vec k 1 ^ 2 + e.vec k 2 ^ 2 = dot (e.vec k) (e.vec k) := by
        unfold dot; ring
      rw [e1, div_self this.ne']
    · rw [if_neg hk, h.orth k j hk, zero_div]
  · intro k i
    have := h.eigen k i
    have h1 := (hs k).ne'
    unfold unit
    field_simp
    linarith

theorem diagonalise_closed {cfg : Config} {t : Tensor} (h : IsEigen t (cfg.solver t)) (q s : ℝ) :
    (((cfg.solver t).val 2 = 0 ∨ q = 0 ∨ s = 0) ∧ diagonalise cfg t q s = none) ∨
    (¬ ((cfg.solver t).val 2 = 0 ∨ q = 0 ∨ s = 0) ∧ diagonalise cfg t q s =
      some (√((cfg.solver t).val 1 / (cfg.solver t).val 2), √((cfg.solver t).val 0 / (cfg.solver t).val 2),
        max (|√((cfg.solver t).val 1 / (cfg.solver t).val 2) - q| / q)
          (|√((cfg.solver t).val 0 / (cfg.solver t).val 2) - s| / s),
        unit ((cfg.solver t).vec 2), unit ((cfg.solver t).vec 1), unit ((cfg.solver t).vec 0))) := by
  by_cases hz : (cfg.solver t).val 2 = 0 ∨ q = 0 ∨ s = 0
  · left
    refine ⟨hz, ?_⟩
    unfold diagonalise
    by_cases h2 : (cfg.solver t).val 2 = 0
    · simp only [cdiv, if_pos h2]
      rfl
    · simp only [cdiv_of_ne h2, Option.bind_eq_bind, Option.bind_some]
      by_cases hq : q = 0
      · simp only [cdiv, if_pos hq]
        rfl
      · simp only [cdiv_of_ne hq, Option.bind_some]
        have hs : s = 0 := by tauto
        simp only [cdiv, if_pos hs]
        rfl
  · right
    refine ⟨hz, ?_⟩
    push Not at hz
    unfold diagonalise
    simp only [cdiv_of_ne hz.1, cdiv_of_ne hz.2.1, cdiv_of_ne hz.2.2, normalise_nonzero (h.nonzero 0),
      normalise_nonzero (h.nonzero 1), normalise_nonzero (h.nonzero 2), Option.bind_eq_bind,
      Option.bind_some]

/-! ## Membership -/

theorem ellRadius2_closed (q s : ℝ) (y : Vec ℝ) : ellRadius2 q s y =
    if q = 0 ∨ s = 0 then none else some (y 0 ^ 2 + y 1 ^ 2 / q ^ 2 + y 2 ^ 2 / s ^ 2) := by
  unfold ellRadius2 cdiv
  by_cases hq : q = 0
  · simp [hq]
  · by_cases hs : s = 0
    · simp [hs]
    · have h1 : q ^ 2 ≠ 0 := pow_ne_zero 2 hq
      have h2 : s ^ 2 ≠ 0 := pow_ne_zero 2 hs
      rw [if_neg h1, if_neg h2, if_neg (by tauto)]
      rfl

theorem innerTest_closed (d δ q s : ℝ) (y : Vec ℝ) : innerTest d δ q s y =
    if d - δ = 0 ∨ q * d - δ = 0 ∨ s * d - δ = 0 then none else
      some (decide (y 0 ^ 2 / (d - δ) ^ 2 + y 1 ^ 2 / (q * d - δ) ^ 2 + y 2 ^ 2 / (s * d - δ) ^ 2 ≥ 1)) := by
  unfold innerTest cdiv
  by_cases h0 : d - δ = 0
  · simp [h0]
  · have e0 : (d - δ) ^ 2 ≠ 0 := pow_ne_zero 2 h0
    by_cases hq : q * d - δ = 0
    · simp [hq]
    · have e1 : (q * d - δ) ^ 2 ≠ 0 := pow_ne_zero 2 hq
      by_cases hs : s * d - δ = 0
      · simp [hs]
      · have e2 : (s * d - δ) ^ 2 ≠ 0 := pow_ne_zero 2 hs
        rw [if_neg e0, if_neg e1, if_neg e2, if_neg (by tauto)]
        rfl

/-- Frames `u` (of the object) and `w` (of the turned object), minor to major, which cannot be told
apart by functions of the eigenvalues `l`. -/
def Matching (R : Matrix (Fin 3) (Fin 3) ℝ) (l : Fin 3 → ℝ) (u w : Fin 3 → Vec ℝ) : Prop :=
  ∀ (f : ℝ → ℝ) (y : Vec ℝ),
    f (l 0) * dot (w 0) (R *ᵥ y) ^ 2 + f (l 1) * dot (w 1) (R *ᵥ y) ^ 2 + f (l 2) * dot (w 2) (R *ᵥ y) ^ 2 =
    f (l 0) * dot (u 0) y ^ 2 + f (l 1) * dot (u 1) y ^ 2 + f (l 2) * dot (u 2) y ^ 2

theorem Matching.form {l : Fin 3 → ℝ} {u w : Fin 3 → Vec ℝ} (h : Matching R l u w) (h2 : l 2 ≠ 0)
    (f : ℝ → ℝ) (y : Vec ℝ) :
    f 1 * dot (w 2) (R *ᵥ y) ^ 2 + f (√(l 1 / l 2)) * dot (w 1) (R *ᵥ y) ^ 2 +
      f (√(l 0 / l 2)) * dot (w 0) (R *ᵥ y) ^ 2 =
    f 1 * dot (u 2) y ^ 2 + f (√(l 1 / l 2)) * dot (u 1) y ^ 2 + f (√(l 0 / l 2)) * dot (u 0) y ^ 2 := by
  have := h (fun x => f (√(x / l 2))) y
  simp only [div_self h2, Real.sqrt_one] at this
  linarith

theorem Matching.ellipsoidal {l : Fin 3 → ℝ} {u w : Fin 3 → Vec ℝ} (h : Matching R l u w) (h2 : l 2 ≠ 0)
    (y : Vec ℝ) :
    ellipsoidal2 (w 2) (w 1) (w 0) (√(l 1 / l 2)) (√(l 0 / l 2)) (R *ᵥ y) =
      ellipsoidal2 (u 2) (u 1) (u 0) (√(l 1 / l 2)) (√(l 0 / l 2)) y := by
  have := h.form h2 (fun x => 1 / x ^ 2) y
  unfold ellipsoidal2
  simp only [one_pow, div_one, one_mul] at this
  rw [one_div_mul_eq_div, one_div_mul_eq_div, one_div_mul_eq_div, one_div_mul_eq_div] at this
  exact this

theorem Matching.radius {l : Fin 3 → ℝ} {u w : Fin 3 → Vec ℝ} (h : Matching R l u w) (h2 : l 2 ≠ 0)
    (p : Pt) :
    ellRadius2 (√(l 1 / l 2)) (√(l 0 / l 2)) (toPrinc (turn R sol cfg) (w 2) (w 1) (w 0) (turnPt R p)) =
      ellRadius2 (√(l 1 / l 2)) (√(l 0 / l 2)) (toPrinc cfg (u 2) (u 1) (u 0) p) := by
  rw [ellRadius2_closed, ellRadius2_closed, toPrinc_eq, toPrinc_eq, rel_turn]
  have := h.ellipsoidal h2 (rel cfg p)
  unfold ellipsoidal2 at this
  exact if_congr Iff.rfl rfl (congrArg some this)

theorem Matching.later {l : Fin 3 → ℝ} {u w : Fin 3 → Vec ℝ} (h : Matching R l u w) (h2 : l 2 ≠ 0)
    (p : Pt) :
    laterTest (turn R sol cfg) (√(l 1 / l 2)) (√(l 0 / l 2))
        (toPrinc (turn R sol cfg) (w 2) (w 1) (w 0) (turnPt R p)) =
      laterTest cfg (√(l 1 / l 2)) (√(l 0 / l 2)) (toPrinc cfg (u 2) (u 1) (u 0) p) := by
  unfold laterTest
  rw [h.radius sol cfg h2 p]
  cases ellRadius2 (√(l 1 / l 2)) (√(l 0 / l 2)) (toPrinc cfg (u 2) (u 1) (u 0) p) with
  | none => rfl
  | some r2 =>
    simp only [Option.bind_eq_bind, Option.bind_some]
    show (if r2 < cfg.d ^ 2 then _ else _) = _
    by_cases hr : r2 < cfg.d ^ 2
    · rw [if_pos hr, if_pos hr]
      show (match cfg.deltaD with | none => _ | some δ => _) = _
      cases cfg.deltaD with
      | none => rfl
      | some δ =>
        show (if cfg.d = δ then _ else _) = (if cfg.d = δ then _ else _)
        by_cases hd : cfg.d = δ
        · rw [if_pos hd, if_pos hd]
        · simp only [if_neg hd]
          show innerTest cfg.d δ _ _ _ = _
          rw [innerTest_closed, innerTest_closed, toPrinc_eq, toPrinc_eq, rel_turn]
          have := h.form h2 (fun x => 1 / (x * cfg.d - δ) ^ 2) (rel cfg p)
          simp only [one_mul, one_div_mul_eq_div] at this
          exact if_congr Iff.rfl rfl (congrArg some (decide_eq_decide.2
            (iff_of_eq (congrArg (· ≥ (1 : ℝ)) this))))
    · rw [if_neg hr, if_neg hr]

/-! ## One iteration -/

theorem match_eigen {t t' : Tensor} (hR : Rᵀ * R = 1) (hsym : ∀ i j, t i j = t j i)
    (ht : Matrix.of t' = R * Matrix.of t * Rᵀ) {e e' : Eigen} (he : IsEigen t e) (he' : IsEigen t' e') :
    e'.val = e.val ∧ Matching R e.val (fun k => unit (e.vec k)) (fun k => unit (e'.vec k)) := by
  obtain ⟨f1, g1⟩ := unit_frame he
  obtain ⟨f2, g2⟩ := unit_frame he'
  have hR' : R * Rᵀ = 1 := mul_eq_one_comm.1 hR
  have hback : Frame3 (fun k => Rᵀ *ᵥ unit (e'.vec k)) := by
    intro k j
    rw [dot_turn (R := Rᵀ) (by rw [Matrix.transpose_transpose]; exact hR')]
    exact f2 k j
  obtain ⟨h1, h2⟩ := spectral t hsym e.val e'.val (fun k => unit (e.vec k))
    (fun k => Rᵀ *ᵥ unit (e'.vec k)) f1 hback g1 (by
      intro k
      have := (isEigenvector_iff _ _ _).1 (g2 k)
      rw [ht] at this
      rw [isEigenvector_iff, ← Matrix.mulVec_smul, ← this, Matrix.mulVec_mulVec, Matrix.mulVec_mulVec,
        ← Matrix.mul_assoc, ← Matrix.mul_assoc, hR, Matrix.one_mul])
    he.ordered he'.ordered
  refine ⟨h1, fun f y => ?_⟩
  have := h2 f y
  simp only [dot_mulVec]
  exact this

theorem orthonormal_frame {major inter minor : Vec ℝ} (h : Orthonormal major inter minor) :
    Frame3 ![major, inter, minor] := by
  obtain ⟨n1, n2, n3, o1, o2, o3⟩ := h
  have o1' := dot_comm inter major
  have o2' := dot_comm minor major
  have o3' := dot_comm minor inter
  intro k j
  fin_cases k <;> fin_cases j <;> simp [n1, n2, n3, o1, o2, o3, o1', o2', o3']

/-- Axes of different lengths are determined by the ellipsoid. -/
theorem axes_unique (major inter minor major' inter' minor' : Vec ℝ) (q s : ℝ)
    (h : Orthonormal major inter minor) (h' : Orthonormal major' inter' minor')
    (he : ∀ y, ellipsoidal2 major' inter' minor' q s y = ellipsoidal2 major inter minor q s y)
    (hs : 0 < s) (hsq : s < q) (hq : q < 1) :
    UpToSign major' major ∧ UpToSign inter' inter ∧ UpToSign minor' minor := by
  have hq0 : 0 < q := hs.trans hsq
  have hframe := orthonormal_frame h
  -- components of a vector
  have expand : ∀ y : Vec ℝ, (∀ i, y i = dot major y * major i + dot inter y * inter i + dot minor y * minor i) := by
    intro y i
    have h1 : (Matrix.of ![major, inter, minor])ᵀ *ᵥ (Matrix.of ![major, inter, minor] *ᵥ y) = y := by
      rw [Matrix.mulVec_mulVec, hframe.transpose_mul, Matrix.one_mulVec]
    have h2 := congrFun h1 i
    rw [mulVec_three, mulVec_three, mulVec_three, mulVec_three] at h2
    simp only [Matrix.transpose_apply, Matrix.of_apply] at h2
    have h3 : major i * dot major y + inter i * dot inter y + minor i * dot minor y = y i := h2
    linarith
  have parseval : ∀ y : Vec ℝ, dot major y ^ 2 + dot inter y ^ 2 + dot minor y ^ 2 = dot y y := by
    intro y
    have e0 := expand y 0
    have e1 := expand y 1
    have e2 := expand y 2
    unfold dot at e0 e1 e2 ⊢
    linear_combination -(y 0 * e0 + y 1 * e1 + y 2 * e2)
  obtain ⟨n1, n2, n3, o1, o2, o3⟩ := h'
  have hq2 : q ^ 2 < 1 := by nlinarith
  have hs2 : s ^ 2 < q ^ 2 := by nlinarith
  have hq1 : 1 < 1 / q ^ 2 := by rw [lt_div_iff₀ (by positivity)]; linarith
  have hs1 : 1 / q ^ 2 < 1 / s ^ 2 := one_div_lt_one_div_of_lt (by positivity) hs2
  have form : ∀ (u v w y : Vec ℝ), ellipsoidal2 u v w q s y =
      dot u y ^ 2 + 1 / q ^ 2 * dot v y ^ 2 + 1 / s ^ 2 * dot w y ^ 2 := by
    intro u v w y; unfold ellipsoidal2; ring
  simp only [form] at he
  generalize 1 / q ^ 2 = A at he hq1 hs1
  generalize 1 / s ^ 2 = B at he hs1
  have sign : ∀ x : ℝ, x ^ 2 = 1 → x = 1 ∨ x = -1 := fun x hx => by
    rcases mul_eq_zero.1 (show (x - 1) * (x + 1) = 0 by linarith [hx, sq x]) with h | h
    · left; linarith
    · right; linarith
  have both : ∀ (α β x y : ℝ), 0 < α → 0 < β → α * x ^ 2 + β * y ^ 2 = 0 → x = 0 ∧ y = 0 := by
    intro α β x y hα hβ h
    have h1 := mul_nonneg hα.le (sq_nonneg x)
    have h2 := mul_nonneg hβ.le (sq_nonneg y)
    refine ⟨?_, ?_⟩
    · have : α * x ^ 2 = 0 := by linarith
      exact pow_eq_zero_iff (two_ne_zero) |>.1 ((mul_eq_zero.1 this).resolve_left hα.ne')
    · have : β * y ^ 2 = 0 := by linarith
      exact pow_eq_zero_iff (two_ne_zero) |>.1 ((mul_eq_zero.1 this).resolve_left hβ.ne')
  have hmaj : dot inter major' = 0 ∧ dot minor major' = 0 := by
    have h1 := he major'
    have h2 := parseval major'
    rw [n1, dot_comm inter' major', o1, dot_comm minor' major', o2] at h1
    rw [n1] at h2
    exact both (A - 1) (B - 1) _ _ (by linarith) (by linarith) (by linarith)
  have hmin : dot major minor' = 0 ∧ dot inter minor' = 0 := by
    have h1 := he minor'
    have h2 := parseval minor'
    rw [n3, o2, o3] at h1
    rw [n3] at h2
    refine both (B - 1) (B - A) _ _ (by linarith) (by linarith) ?_
    linear_combination h1 + B * h2
  have up : ∀ (u v : Vec ℝ) (a : ℝ), a ^ 2 = 1 → (∀ i, v i = a * u i) → UpToSign v u := by
    intro u v a ha hv
    rcases sign a ha with rfl | rfl
    · left; funext i; rw [hv i, one_mul]
    · right; funext i; rw [hv i]; simp
  have p1 := parseval major'
  have p3 := parseval minor'
  rw [hmaj.1, hmaj.2, n1] at p1
  rw [hmin.1, hmin.2, n3] at p3
  have m1 : UpToSign major' major := up _ _ (dot major major') (by linarith) fun i => by
    have := expand major' i
    rw [hmaj.1, hmaj.2] at this
    linarith
  have m3 : UpToSign minor' minor := up _ _ (dot minor minor') (by linarith) fun i => by
    have := expand minor' i
    rw [hmin.1, hmin.2] at this
    linarith
  have hint : dot major inter' = 0 ∧ dot minor inter' = 0 := by
    constructor
    · rcases m1 with e | e
      · rw [← e]; exact o1
      · have : major = -major' := by rw [e, neg_neg]
        rw [this]
        have e1 : dot (-major') inter' = - dot major' inter' := by unfold dot; simp; ring
        rw [e1, o1, neg_zero]
    · rcases m3 with e | e
      · rw [← e, dot_comm]; exact o3
      · have : minor = -minor' := by rw [e, neg_neg]
        rw [this]
        have e1 : dot (-minor') inter' = - dot inter' minor' := by unfold dot; simp; ring
        rw [e1, o3, neg_zero]
  have p2 := parseval inter'
  rw [hint.1, hint.2, n2] at p2
  refine ⟨m1, up _ _ (dot inter inter') (by linarith) fun i => ?_, m3⟩
  have := expand inter' i
  rw [hint.1, hint.2] at this
  linarith

/-- States of the iterations for an object and for the turned object. -/
structure TurnRel (R : Matrix (Fin 3) (Fin 3) ℝ) (tol : ℝ) (st st' : PState) : Prop where
  q : st'.q = st.q
  s : st'.s = st.s
  err : st'.err = st.err
  iteration : st'.iteration = st.iteration
  sel : st'.sel = turnSel R st.sel
  morph : tol < st.err ∨ SameShape R st.morph st'.morph

theorem iterate_turn (hR : Rᵀ * R = 1) (hsol : GoodSolver cfg.solver) (hsol' : GoodSolver sol)
    (tol : ℝ) (st st' : PState) (h : TurnRel R tol st st') :
    (pureIterate cfg st = none ∧ pureIterate (turn R sol cfg) st' = none) ∨
    ∃ s1 s1', pureIterate cfg st = some s1 ∧ pureIterate (turn R sol cfg) st' = some s1' ∧
      TurnRel R tol s1 s1' := by
  have hred : (turn R sol cfg).reduced = cfg.reduced := rfl
  unfold pureIterate
  rw [h.sel, h.q, h.s]
  have hdiv : (∃ pr ∈ turnSel R st.sel, (if cfg.reduced then
      ((turnSel R st.sel).map fun pr => pr.1.m).sum * pr.2 ^ 2
        else ((turnSel R st.sel).map fun pr => pr.1.m).sum) = 0) ↔
      ∃ pr ∈ st.sel, (if cfg.reduced then (st.sel.map fun pr => pr.1.m).sum * pr.2 ^ 2
        else (st.sel.map fun pr => pr.1.m).sum) = 0 := by
    rw [mass_turn]
    unfold turnSel
    simp only [List.mem_map, exists_exists_and_eq_and]
  rcases pureTensor_closed cfg st.sel with ⟨d1, t1⟩ | ⟨d1, t1⟩
  · rcases pureTensor_closed (turn R sol cfg) (turnSel R st.sel) with ⟨-, t2⟩ | ⟨d2, -⟩
    · rw [t1, t2]
      simp only [Option.bind_eq_bind, Option.bind_some]
      have hsym := selTensor_symm cfg st.sel
      have hsym' := selTensor_symm (turn R sol cfg) (turnSel R st.sel)
      have hT := selTensor_turn (R := R) sol cfg st.sel
      generalize selTensor cfg st.sel = t at hT hsym ⊢
      generalize selTensor (turn R sol cfg) (turnSel R st.sel) = t' at hT hsym' ⊢
      have hE := hsol t hsym
      have hE' : IsEigen t' ((turn R sol cfg).solver t') := hsol' t' hsym'
      obtain ⟨hval, hmatch⟩ := match_eigen hR hsym hT hE hE'
      obtain ⟨fr, -⟩ := unit_frame hE
      obtain ⟨fr', -⟩ := unit_frame hE'
      rcases diagonalise_closed hE st.q st.s with ⟨z1, g1⟩ | ⟨z1, g1⟩
      · rcases diagonalise_closed hE' st.q st.s with ⟨z2, g2⟩ | ⟨z2, g2⟩
        · rw [g1, g2]; left; exact ⟨rfl, rfl⟩
        · rw [hval] at z2; exact absurd z1 z2
      · rcases diagonalise_closed hE' st.q st.s with ⟨z2, g2⟩ | ⟨z2, g2⟩
        · rw [hval] at z2; exact absurd z2 z1
        · rw [g1, g2, hval]
          push Not at z1
          simp only [Option.bind_some]
          set e := cfg.solver t
          set e' := (turn R sol cfg).solver t'
          have r1 : ((turn R sol cfg).pts.map (toPrinc (turn R sol cfg) (unit (e'.vec 2))
              (unit (e'.vec 1)) (unit (e'.vec 0)))).mapM
                (fun y => (ellRadius2 (√(e.val 1 / e.val 2)) (√(e.val 0 / e.val 2)) y).map Real.sqrt) =
              (cfg.pts.map (toPrinc cfg (unit (e.vec 2)) (unit (e.vec 1)) (unit (e.vec 0)))).mapM
                (fun y => (ellRadius2 (√(e.val 1 / e.val 2)) (√(e.val 0 / e.val 2)) y).map Real.sqrt) := by
            show List.mapM _ (List.map _ (cfg.pts.map (turnPt R))) = _
            rw [List.mapM_map, List.mapM_map, List.mapM_map]
            congr 1
            funext p
            exact congrArg (Option.map Real.sqrt) (hmatch.radius sol cfg z1.1 p)
          have r2 : ((turn R sol cfg).pts.map (toPrinc (turn R sol cfg) (unit (e'.vec 2))
              (unit (e'.vec 1)) (unit (e'.vec 0)))).mapM
                (laterTest (turn R sol cfg) (√(e.val 1 / e.val 2)) (√(e.val 0 / e.val 2))) =
              (cfg.pts.map (toPrinc cfg (unit (e.vec 2)) (unit (e.vec 1)) (unit (e.vec 0)))).mapM
                (laterTest cfg (√(e.val 1 / e.val 2)) (√(e.val 0 / e.val 2))) := by
            show List.mapM _ (List.map _ (cfg.pts.map (turnPt R))) = _
            rw [List.mapM_map, List.mapM_map, List.mapM_map]
            congr 1
            funext p
            exact hmatch.later sol cfg z1.1 p
          rw [r1, r2]
          cases (cfg.pts.map (toPrinc cfg (unit (e.vec 2)) (unit (e.vec 1)) (unit (e.vec 0)))).mapM
              (fun y => (ellRadius2 (√(e.val 1 / e.val 2)) (√(e.val 0 / e.val 2)) y).map Real.sqrt) with
          | none => left; exact ⟨rfl, rfl⟩
          | some rs =>
            cases (cfg.pts.map (toPrinc cfg (unit (e.vec 2)) (unit (e.vec 1)) (unit (e.vec 0)))).mapM
                (laterTest cfg (√(e.val 1 / e.val 2)) (√(e.val 0 / e.val 2))) with
            | none => left; exact ⟨rfl, rfl⟩
            | some tests =>
              right
              refine ⟨_, _, rfl, rfl, ?_⟩
              refine ⟨rfl, rfl, rfl, by simp only [h.iteration], select_turn _ _ _, Or.inr ?_⟩
              refine ⟨rfl, rfl, rfl, fun y => hmatch.ellipsoidal z1.1 y, ?_⟩
              intro hs hsq hq
              have on : ∀ {u : Fin 3 → Vec ℝ}, Frame3 u → Orthonormal (u 2) (u 1) (u 0) := by
                intro u hu
                exact ⟨hu 2 2, hu 1 1, hu 0 0, hu 2 1, hu 2 0, hu 1 0⟩
              have o1 := on fr
              have o2 := on fr'
              refine axes_unique (R *ᵥ unit (e.vec 2)) (R *ᵥ unit (e.vec 1)) (R *ᵥ unit (e.vec 0))
                _ _ _ (√(e.val 1 / e.val 2)) (√(e.val 0 / e.val 2)) ?_ o2 ?_ hs hsq hq
              · unfold Orthonormal
                simp only [dot_turn hR]
                exact o1
              · intro y
                have hR' : R * Rᵀ = 1 := mul_eq_one_comm.1 hR
                have hy : y = R *ᵥ (Rᵀ *ᵥ y) := by
                  rw [Matrix.mulVec_mulVec, hR', Matrix.one_mulVec]
                have := hmatch.ellipsoidal z1.1 (Rᵀ *ᵥ y)
                rw [← hy] at this
                rw [this]
                conv_rhs => rw [hy]
                unfold ellipsoidal2
                simp only [dot_turn hR]
    · exfalso
      obtain ⟨pr, hpr, h0⟩ := hdiv.1 d2
      exact d1 pr hpr h0
  · rcases pureTensor_closed (turn R sol cfg) (turnSel R st.sel) with ⟨d2, -⟩ | ⟨-, t2⟩
    · exfalso
      obtain ⟨pr, hpr, h0⟩ := hdiv.2 d1
      exact d2 pr hpr h0
    · rw [t1, t2]; left; exact ⟨rfl, rfl⟩

theorem sameShape_zero (R : Matrix (Fin 3) (Fin 3) ℝ) : SameShape R Morph.zero Morph.zero := by
  refine ⟨rfl, rfl, rfl, ?_, ?_⟩
  · intro y; simp [ellipsoidal2, Morph.zero, dot]
  · intro hs; simp [Morph.zero] at hs

theorem step_turn (hR : Rᵀ * R = 1) (hsol : GoodSolver cfg.solver) (hsol' : GoodSolver sol)
    (st st' : PState) (h : TurnRel R cfg.tol st st') :
    (∃ r r', pureStep cfg st = .stop r ∧ pureStep (turn R sol cfg) st' = .stop r' ∧
      Agree R (some r) (some r')) ∨
    ∃ s1 s1', pureStep cfg st = .go s1 ∧ pureStep (turn R sol cfg) st' = .go s1' ∧
      TurnRel R cfg.tol s1 s1' := by
  have h1 : (turn R sol cfg).tol = cfg.tol := rfl
  have h2 : (turn R sol cfg).wall = cfg.wall := rfl
  have h3 : (turn R sol cfg).itMin = cfg.itMin := rfl
  unfold pureStep
  rw [h.err, h.iteration, h1, h2, h3]
  by_cases he : st.err > cfg.tol
  · rw [if_pos he, if_pos he]
    by_cases hw : (st.iteration : Int) > cfg.wall
    · rw [if_pos hw, if_pos hw]; exact Or.inl ⟨_, _, rfl, rfl, .shape _ _ (sameShape_zero R)⟩
    · have hl : st'.sel.length = st.sel.length := by rw [h.sel]; simp [turnSel]
      rw [if_neg hw, if_neg hw, hl]
      by_cases hm : (st.sel.length : Int) < cfg.itMin
      · rw [if_pos hm, if_pos hm]; exact Or.inl ⟨_, _, rfl, rfl, .shape _ _ (sameShape_zero R)⟩
      · rw [if_neg hm, if_neg hm]
        rcases iterate_turn sol cfg hR hsol hsol' cfg.tol st st' h with ⟨e1, e2⟩ | ⟨s1, s1', e1, e2, hr⟩
        · rw [e1, e2]; exact Or.inl ⟨_, _, rfl, rfl, .failed⟩
        · rw [e1, e2]; exact Or.inr ⟨_, _, rfl, rfl, hr⟩
  · rw [if_neg he, if_neg he]
    exact Or.inl ⟨_, _, rfl, rfl, .shape _ _ (h.morph.resolve_left he)⟩

theorem loop_turn (hR : Rᵀ * R = 1) (hsol : GoodSolver cfg.solver) (hsol' : GoodSolver sol)
    (fuel : Nat) (st st' : PState) (h : TurnRel R cfg.tol st st') :
    Agree R (loop (pureStep cfg) fuel st) (loop (pureStep (turn R sol cfg)) fuel st') := by
  induction fuel generalizing st st' with
  | zero => exact .running
  | succ fuel ih =>
    unfold loop
    rcases step_turn sol cfg hR hsol hsol' st st' h with ⟨r, r', e1, e2, ha⟩ | ⟨s1, s1', e1, e2, hr⟩
    · rw [e1, e2]; exact ha
    · rw [e1, e2]; exact ih s1 s1' hr

end

theorem pureRun_turn (fuel : Nat) (cfg : Config) (R : Matrix (Fin 3) (Fin 3) ℝ) (hR : Rᵀ * R = 1)
    (sol : Solver) (hsol : GoodSolver cfg.solver) (hsol' : GoodSolver sol)
    (morph morph' : Morph) (h : cfg.tol < 1 ∨ SameShape R morph morph') :
    Agree R (pureRun fuel cfg morph) (pureRun fuel (turn R sol cfg) morph') := by
  apply loop_turn sol cfg hR hsol hsol'
  refine ⟨rfl, rfl, rfl, rfl, ?_, h⟩
  show select (cfg.pts.map (turnPt R)) _ _ = _
  rw [select_turn]
  congr 2
  · show List.map _ (cfg.pts.map (turnPt R)) = _
    rw [List.map_map]
    apply List.map_congr_left
    intro p _
    exact radius0_turn hR sol cfg p
  · show List.map _ (cfg.pts.map (turnPt R)) = _
    rw [List.map_map]
    apply List.map_congr_left
    intro p _
    exact initialTest_turn hR sol cfg p

/-- C114. Turning (or mirroring) an object together with its centre, and using another eigenvalue
routine, gives the same outcome: the same size and axis ratios, and the ellipsoid turned, in every number
of iterations, for all four variants of the algorithm. -/
theorem C114_rotation (fuel : Nat) (cfg : Config) (R : Matrix (Fin 3) (Fin 3) ℝ) (hR : Rᵀ * R = 1)
    (sol : Solver) (hsol : GoodSolver cfg.solver) (hsol' : GoodSolver sol) (htol : cfg.tol < 1)
    (morph morph' : Morph) (sc sc' : Scratch) (hf : Fits cfg sc) (hf' : Fits cfg sc') :
    Agree R (result (runAlgo fuel cfg morph sc)) (result (runAlgo fuel (turn R sol cfg) morph' sc')) := by
  unfold result
  rw [(runAlgo_pure fuel cfg morph sc hf.1 hf.2).1,
    (runAlgo_pure fuel (turn R sol cfg) morph' sc' (by simpa [turn] using hf'.1)
      (by simpa [turn] using hf'.2)).1]
  exact pureRun_turn fuel cfg R hR sol hsol hsol' morph morph' (Or.inl htol)

/-- C114, special case of no rotation: the outcome does not depend on the eigenvalue routine, as long as
the routine returns an orthonormal eigenbasis with ascending eigenvalues. -/
theorem C114_routine (fuel : Nat) (cfg : Config)
    (sol : Solver) (hsol : GoodSolver cfg.solver) (hsol' : GoodSolver sol) (htol : cfg.tol < 1)
    (morph morph' : Morph) (sc sc' : Scratch) (hf : Fits cfg sc) (hf' : Fits cfg sc') :
    Agree 1 (result (runAlgo fuel cfg morph sc))
      (result (runAlgo fuel { cfg with solver := sol } morph' sc')) := by
  have h := C114_rotation fuel cfg 1 (by simp) sol hsol hsol' htol morph morph' sc sc' hf hf'
  have e : turn 1 sol cfg = { cfg with solver := sol } := by
    unfold turn
    have : turnPt 1 = id := by
      funext p; unfold turnPt; simp
    rw [this]; simp
  rwa [e] at h

/-- Rotation about the z axis with cosine 3/5 and sine 4/5. -/
noncomputable def rotation345 : Matrix (Fin 3) (Fin 3) ℝ := !![3 / 5, -4 / 5, 0; 4 / 5, 3 / 5, 0; 0, 0, 1]

theorem rotation345_orthogonal : rotation345ᵀ * rotation345 = 1 := by
  have h00 : rotation345 0 0 = 3 / 5 := rfl
  have h01 : rotation345 0 1 = -4 / 5 := rfl
  have h02 : rotation345 0 2 = 0 := rfl
  have h10 : rotation345 1 0 = 4 / 5 := rfl
  have h11 : rotation345 1 1 = 3 / 5 := rfl
  have h12 : rotation345 1 2 = 0 := rfl
  have h20 : rotation345 2 0 = 0 := rfl
  have h21 : rotation345 2 1 = 0 := rfl
  have h22 : rotation345 2 2 = 1 := rfl
  ext i j
  rw [Matrix.mul_apply, Fin.sum_univ_three]
  simp only [Matrix.transpose_apply]
  fin_cases i <;> fin_cases j <;> simp [h00, h01, h02, h10, h11, h12, h20, h21, h22] <;> norm_num

/-- The cross, turned, has again axis ratios 2/3 and 1/3; its major axis points along (3/5, 4/5, 0). -/
example (sol sol' : Solver) (hsol : GoodSolver sol) (hsol' : GoodSolver sol') :
    ∃ m, result (runAlgo 3 (turn rotation345 sol' (crossCfg sol)) .zero
        ⟨[], List.replicate 6 0, List.replicate 6 0, 0⟩) = some (some m) ∧
      m.q = 2 / 3 ∧ m.s = 1 / 3 ∧ UpToSign m.major ![3 / 5, 4 / 5, 0] := by
  have hf : Fits (crossCfg sol) ⟨[], List.replicate 6 0, List.replicate 6 0, 0⟩ :=
    ⟨by simp [crossCfg, crossPts], by simp [crossCfg, crossPts]⟩
  have h := C114_rotation 3 (crossCfg sol) rotation345 rotation345_orthogonal sol' hsol hsol'
    (by norm_num [crossCfg]) .zero .zero _ _ hf hf
  obtain ⟨x, y, z, hx, hy, hz, hrun⟩ := cross_run sol hsol .zero
  have h1 := (runAlgo_pure 3 (crossCfg sol) .zero
    ⟨[], List.replicate 6 0, List.replicate 6 0, 0⟩ hf.1 hf.2).1
  unfold result at h ⊢
  rw [h1, hrun 3 le_rfl] at h
  generalize Option.map (Option.map Prod.fst) (runAlgo 3 (turn rotation345 sol' (crossCfg sol)) .zero
        ⟨[], List.replicate 6 0, List.replicate 6 0, 0⟩) = r at h ⊢
  cases h with
  | shape m m' h =>
    refine ⟨m', rfl, h.q, h.s, ?_⟩
    have hm := (h.axes (by norm_num) (by norm_num) (by norm_num)).1
    have hx' : x = 1 ∨ x = -1 := by
      rcases mul_eq_zero.1 (show (x - 1) * (x + 1) = 0 by linarith) with h | h
      · left; linarith
      · right; linarith
    have e : rotation345 *ᵥ ![x, 0, 0] = ![3 / 5 * x, 4 / 5 * x, 0] := by
      funext i
      rw [mulVec_three]
      fin_cases i <;> simp [rotation345]
    rw [show (⟨100, 2 / 3, 1 / 3, ![x, 0, 0], ![0, y, 0], ![0, 0, z]⟩ : Morph).major = ![x, 0, 0] from rfl,
      e] at hm
    unfold UpToSign at hm ⊢
    rcases hx' with rfl | rfl
    · simpa using hm
    · have e2 : (![3 / 5 * -1, 4 / 5 * -1, 0] : Vec ℝ) = -![3 / 5, 4 / 5, 0] := by
        funext i; fin_cases i <;> simp
      rw [e2, neg_neg] at hm
      exact hm.symm

/-! ## All radii of an object -/

theorem sameShape_start (R : Matrix (Fin 3) (Fin 3) ℝ) (d : ℝ) :
    SameShape R { Morph.zero with d := d } { Morph.zero with d := d } := by
  have h := sameShape_zero R
  exact ⟨rfl, rfl, rfl, h.ellipsoid, h.axes⟩

theorem pureOne_turn (cfg : Config) (R : Matrix (Fin 3) (Fin 3) ℝ) (hR : Rᵀ * R = 1)
    (sol : Solver) (hsol : GoodSolver cfg.solver) (hsol' : GoodSolver sol) (morph : Morph)
    (h : SameShape R morph morph) :
    Option.Rel (SameShape R) (pureOne cfg morph) (pureOne (turn R sol cfg) morph) := by
  unfold pureOne
  have := pureRun_turn (cfg.wall.toNat + 1) cfg R hR sol hsol hsol' morph morph (Or.inr h)
  rw [show (turn R sol cfg).wall = cfg.wall from rfl]
  generalize pureRun (cfg.wall.toNat + 1) cfg morph = x at this
  generalize pureRun (cfg.wall.toNat + 1) (turn R sol cfg) morph = y at this
  cases this with
  | running => exact .none
  | failed => exact .none
  | shape m m' h => exact .some h

theorem mapM_rel {α β : Type} (r : β → β → Prop) (f g : α → Option β) (l : List α)
    (h : ∀ a ∈ l, Option.Rel r (f a) (g a)) :
    Option.Rel (List.Forall₂ r) (l.mapM f) (l.mapM g) := by
  induction l with
  | nil => exact .some .nil
  | cons a l ih =>
    rw [List.mapM_cons, List.mapM_cons]
    have h1 := h a List.mem_cons_self
    have h2 := ih fun b hb => h b (List.mem_cons_of_mem a hb)
    cases hf : f a <;> cases hg : g a <;> rw [hf, hg] at h1
    · exact .none
    · cases h1
    · cases h1
    · rename_i b b'
      cases h1 with
      | some h1 =>
      generalize List.mapM (m := Option) f l = x at h2
      generalize List.mapM (m := Option) g l = y at h2
      cases h2 with
      | none => exact .none
      | some h2 => exact .some (.cons h1 h2)

theorem pureLoop_turn (st : Settings) (sol : Solver) (R : Matrix (Fin 3) (Fin 3) ℝ) (hR : Rᵀ * R = 1)
    (hsol : GoodSolver st.solver) (hsol' : GoodSolver sol) (pts : List Pt) (center srcCenter : Vec ℝ)
    (rows : List ((ℝ × Option ℝ) × Morph)) (h : ∀ row ∈ rows, SameShape R row.2 row.2) :
    Option.Rel (List.Forall₂ (SameShape R)) (pureLoop st pts center srcCenter rows)
      (pureLoop { st with solver := sol } (pts.map (turnPt R)) (R *ᵥ center) (R *ᵥ srcCenter) rows) := by
  apply mapM_rel
  intro row hrow
  exact pureOne_turn (st.config pts center srcCenter row.1.1 row.1.2) R hR sol hsol hsol' row.2
    (h row hrow)

theorem foldl_add_div (l : List Pt) (f : Pt → ℝ) (n a : ℝ) :
    l.foldl (fun acc p => acc + f p / n) a = a + (l.map f).sum / n := by
  induction l generalizing a with
  | nil => simp
  | cons p l ih => rw [List.foldl_cons, ih, List.map_cons, List.sum_cons]; ring

theorem localSpread_turn (R : Matrix (Fin 3) (Fin 3) ℝ) (hR : Rᵀ * R = 1) (pts : List Pt) :
    localSpread (pts.map (turnPt R)) = localSpread pts := by
  have hmean : ∀ i, ((pts.map (turnPt R)).map fun p => p.x i).sum =
      (R *ᵥ fun k => (pts.map fun p => p.x k).sum) i := by
    intro i
    rw [mulVec_three, List.map_map]
    induction pts with
    | nil => simp
    | cons p l ih =>
      simp only [List.map_cons, List.sum_cons, Function.comp] at ih ⊢
      rw [ih]
      show (R *ᵥ p.x) i + _ = _
      rw [mulVec_three]; ring
  unfold localSpread
  simp only [foldl_add_div, hmean, List.length_map, zero_add]
  rw [List.map_map]
  congr 2
  apply List.map_congr_left
  intro p _
  show √_ = √_
  congr 1
  set S : Vec ℝ := fun k => (pts.map fun p => p.x k).sum
  set n : ℝ := (pts.length : ℝ)
  have h1 : ∀ i, (turnPt R p).x i - (R *ᵥ S) i / n = (R *ᵥ fun k => p.x k - S k / n) i := by
    intro i
    show (R *ᵥ p.x) i - _ = _
    rw [mulVec_three, mulVec_three, mulVec_three]; ring
  rw [h1, h1, h1]
  have := dot_turn hR (fun k => p.x k - S k / n) (fun k => p.x k - S k / n)
  unfold dot at this
  linarith

/-- C114, for all radii of an object at once (`d`, `q`, `s` and axes at each radius; shell-based or not):
a turned object has the turned shape profile, whatever was in the scratch memory.  No condition on the
tolerance. -/
theorem C114_profile (st : Settings) (sol : Solver) (R : Matrix (Fin 3) (Fin 3) ℝ) (hR : Rᵀ * R = 1)
    (hsol : GoodSolver st.solver) (hsol' : GoodSolver sol) (pts : List Pt) (center srcCenter : Vec ℝ)
    (r200 : ℝ) (morphs morphs' : List Morph) (hm : morphs'.length = morphs.length) (sc sc' : Scratch)
    (hs : pts.length ≤ sc.shell.length) (hr : pts.length ≤ sc.rEll.length)
    (hs' : pts.length ≤ sc'.shell.length) (hr' : pts.length ≤ sc'.rEll.length) :
    Option.Rel (List.Forall₂ (SameShape R))
      ((objMorphLocal st pts center srcCenter r200 morphs sc).map Prod.fst)
      ((objMorphLocal { st with solver := sol } (pts.map (turnPt R)) (R *ᵥ center) (R *ᵥ srcCenter) r200
        morphs' sc').map Prod.fst) := by
  rw [(objMorphLocal_pure st pts center srcCenter r200 morphs sc hs hr).1,
    (objMorphLocal_pure { st with solver := sol } (pts.map (turnPt R)) (R *ᵥ center) (R *ᵥ srcCenter) r200
      morphs' sc' (by simpa using hs') (by simpa using hr')).1, hm]
  unfold pureLocal
  rw [localSpread_turn R hR]
  have hz : ∀ n, List.Forall₂ (SameShape R) (List.replicate n Morph.zero) (List.replicate n Morph.zero) := by
    intro n
    rw [List.forall₂_same]
    intro m hm
    rw [(List.mem_replicate.1 hm).2]; exact sameShape_zero R
  split
  · exact .some (hz _)
  · split
    · exact .some (hz _)
    · apply pureLoop_turn st sol R hR hsol hsol'
      intro row hrow
      obtain ⟨k, -, rfl⟩ := List.mem_map.1 hrow
      exact sameShape_start R _

/-- C114, for the shape of the object as a whole. -/
theorem C114_global (st : Settings) (sol : Solver) (R : Matrix (Fin 3) (Fin 3) ℝ) (hR : Rᵀ * R = 1)
    (hsol : GoodSolver st.solver) (hsol' : GoodSolver sol) (pts : List Pt) (center srcCenter : Vec ℝ)
    (r200 : ℝ) (morphs morphs' : List Morph) (hm : morphs'.length = morphs.length) (sc sc' : Scratch)
    (hs : pts.length ≤ sc.shell.length) (hr : pts.length ≤ sc.rEll.length)
    (hs' : pts.length ≤ sc'.shell.length) (hr' : pts.length ≤ sc'.rEll.length) :
    Option.Rel (List.Forall₂ (SameShape R))
      ((objMorphGlobal st pts center srcCenter r200 morphs sc).map Prod.fst)
      ((objMorphGlobal { st with solver := sol } (pts.map (turnPt R)) (R *ᵥ center) (R *ᵥ srcCenter) r200
        morphs' sc').map Prod.fst) := by
  rw [(objMorphGlobal_pure st pts center srcCenter r200 morphs sc hs hr).1,
    (objMorphGlobal_pure { st with solver := sol } (pts.map (turnPt R)) (R *ᵥ center) (R *ᵥ srcCenter) r200
      morphs' sc' (by simpa using hs') (by simpa using hr')).1, hm]
  unfold pureGlobal
  rw [localSpread_turn R hR]
  split
  · refine .some ?_
    rw [List.forall₂_same]
    intro m hm
    rw [(List.mem_replicate.1 hm).2]; exact sameShape_zero R
  · apply pureLoop_turn st sol R hR hsol hsol'
    intro row hrow
    rw [(List.mem_replicate.1 hrow).2]
    exact sameShape_start R _

end Verif.Shapes
