import Verif.Shapes.Pure
import Verif.Shapes.Spec

/-!
# Analysis of one iteration
-/

namespace Verif.Shapes

theorem cdiv_some {x y z : ℝ} (h : cdiv x y = some z) : y ≠ 0 ∧ z = x / y := by
  unfold cdiv at h
  split at h
  · cases h
  · rename_i hy; exact ⟨hy, (Option.some.inj h).symm⟩

theorem cdiv_of_ne {x y : ℝ} (h : y ≠ 0) : cdiv x y = some (x / y) := by
  unfold cdiv; rw [if_neg h]

/-! ## Tensor -/

/-- Divisor of a particle in the tensor, without the total mass. -/
noncomputable def weight (cfg : Config) (r : ℝ) : ℝ := if cfg.reduced then r ^ 2 else 1

/-- The tensor of selected particles. -/
noncomputable def selTensor (cfg : Config) (sel : Sel) (i j : Fin 3) : ℝ :=
  (sel.map fun pr => pr.1.m * (pr.1.src i - cfg.srcCenter i) * (pr.1.src j - cfg.srcCenter j) /
    weight cfg pr.2).sum / (sel.map fun pr => pr.1.m).sum

theorem tensorTerm_some {cfg : Config} {mt : ℝ} {p : Pt} {r : ℝ} {i j : Fin 3} {v : ℝ}
    (h : tensorTerm cfg mt p r i j = some v) :
    v = p.m * (p.src i - cfg.srcCenter i) * (p.src j - cfg.srcCenter j) / weight cfg r / mt := by
  unfold tensorTerm at h
  obtain ⟨-, rfl⟩ := cdiv_some h
  unfold weight
  cases cfg.reduced
  · simp
  · simp only [if_true]; rw [div_div, mul_comm mt]

theorem pureEntry_some {cfg : Config} {mt : ℝ} {sel : Sel} {i j : Fin 3} {v : ℝ}
    (h : pureEntry cfg mt sel i j = some v) :
    v = (sel.map fun pr => pr.1.m * (pr.1.src i - cfg.srcCenter i) *
      (pr.1.src j - cfg.srcCenter j) / weight cfg pr.2).sum / mt := by
  unfold pureEntry at h
  have gen : ∀ (sel : Sel) (a v : ℝ),
      sel.foldlM (fun acc pr => (tensorTerm cfg mt pr.1 pr.2 i j).map (acc + ·)) a = some v →
      v = a + (sel.map fun pr => pr.1.m * (pr.1.src i - cfg.srcCenter i) *
      (pr.1.src j - cfg.srcCenter j) / weight cfg pr.2).sum / mt := by
    intro sel
    induction sel with
    | nil =>
      intro a v h
      simp only [List.foldlM_nil] at h
      have h : a = v := Option.some.inj h
      simp [h]
    | cons pr sel ih =>
      intro a v h
      rw [List.foldlM_cons] at h
      cases ht : tensorTerm cfg mt pr.1 pr.2 i j with
      | none => rw [ht] at h; simp at h
      | some w =>
        rw [ht] at h
        simp only [Option.map_some, Option.bind_eq_bind, Option.bind_some] at h
        rw [ih _ _ h, tensorTerm_some ht, List.map_cons, List.sum_cons, add_div]
        ring
  rw [gen sel 0 v h, zero_add]

theorem pureTensor_some {cfg : Config} {sel : Sel} {t : Tensor} (h : pureTensor cfg sel = some t) :
    t = selTensor cfg sel := by
  unfold pureTensor at h
  simp only [Option.bind_eq_bind, Option.bind_eq_some_iff] at h
  obtain ⟨e00, h00, e10, h10, e11, h11, e20, h20, e21, h21, e22, h22, h⟩ := h
  have h := Option.some.inj h
  rw [pureEntry_some h00, pureEntry_some h10, pureEntry_some h11, pureEntry_some h20,
    pureEntry_some h21, pureEntry_some h22] at h
  have sym : ∀ i j : Fin 3, (sel.map fun pr => pr.1.m * (pr.1.src i - cfg.srcCenter i) *
      (pr.1.src j - cfg.srcCenter j) / weight cfg pr.2).sum =
      (sel.map fun pr => pr.1.m * (pr.1.src j - cfg.srcCenter j) *
      (pr.1.src i - cfg.srcCenter i) / weight cfg pr.2).sum := by
    intro i j
    congr 1
    apply List.map_congr_left
    intro pr _
    ring
  rw [← h]
  funext i j
  unfold selTensor
  fin_cases i <;> fin_cases j <;>
    first
    | rfl
    | exact congrArg (· / _) (sym _ _)

theorem selTensor_symm (cfg : Config) (sel : Sel) (i j : Fin 3) :
    selTensor cfg sel i j = selTensor cfg sel j i := by
  unfold selTensor
  congr 2
  apply List.map_congr_left
  intro pr _
  ring

theorem weight_nonneg (cfg : Config) (r : ℝ) : 0 ≤ weight cfg r := by
  unfold weight; split <;> positivity

/-- The quadratic form of the tensor. -/
theorem selTensor_form (cfg : Config) (sel : Sel) (v : Vec ℝ) :
    v 0 * (selTensor cfg sel 0 0 * v 0 + selTensor cfg sel 0 1 * v 1 + selTensor cfg sel 0 2 * v 2) +
    v 1 * (selTensor cfg sel 1 0 * v 0 + selTensor cfg sel 1 1 * v 1 + selTensor cfg sel 1 2 * v 2) +
    v 2 * (selTensor cfg sel 2 0 * v 0 + selTensor cfg sel 2 1 * v 1 + selTensor cfg sel 2 2 * v 2) =
    (sel.map fun pr => pr.1.m * dot v (fun i => pr.1.src i - cfg.srcCenter i) ^ 2 /
      weight cfg pr.2).sum / (sel.map fun pr => pr.1.m).sum := by
  unfold selTensor
  generalize (sel.map fun pr => pr.1.m).sum = M
  have : ∀ (f : Fin 3 → Fin 3 → ℝ), v 0 * (f 0 0 / M * v 0 + f 0 1 / M * v 1 + f 0 2 / M * v 2) +
      v 1 * (f 1 0 / M * v 0 + f 1 1 / M * v 1 + f 1 2 / M * v 2) +
      v 2 * (f 2 0 / M * v 0 + f 2 1 / M * v 1 + f 2 2 / M * v 2) =
      (v 0 * (f 0 0 * v 0 + f 0 1 * v 1 + f 0 2 * v 2) +
      v 1 * (f 1 0 * v 0 + f 1 1 * v 1 + f 1 2 * v 2) +
      v 2 * (f 2 0 * v 0 + f 2 1 * v 1 + f 2 2 * v 2)) / M := by intro f; ring
  rw [this fun i j => (sel.map fun pr => pr.1.m * (pr.1.src i - cfg.srcCenter i) *
    (pr.1.src j - cfg.srcCenter j) / weight cfg pr.2).sum]
  congr 1
  induction sel with
  | nil => simp
  | cons pr sel ih =>
    simp only [List.map_cons, List.sum_cons]
    rw [← ih]
    unfold dot
    ring

theorem selTensor_psd (cfg : Config) (sel : Sel) (hm : ∀ pr ∈ sel, 0 ≤ pr.1.m) (v : Vec ℝ) :
    0 ≤ v 0 * (selTensor cfg sel 0 0 * v 0 + selTensor cfg sel 0 1 * v 1 +
        selTensor cfg sel 0 2 * v 2) +
      v 1 * (selTensor cfg sel 1 0 * v 0 + selTensor cfg sel 1 1 * v 1 +
        selTensor cfg sel 1 2 * v 2) +
      v 2 * (selTensor cfg sel 2 0 * v 0 + selTensor cfg sel 2 1 * v 1 +
        selTensor cfg sel 2 2 * v 2) := by
  rw [selTensor_form]
  apply div_nonneg
  · apply sum_map_nonneg'
    intro pr h
    exact div_nonneg (mul_nonneg (hm pr h) (sq_nonneg _)) (weight_nonneg _ _)
  · exact sum_map_nonneg' _ _ hm

/-! ## Eigenframe -/

theorem dot_self_pos {v : Vec ℝ} (h : v ≠ 0) : 0 < dot v v := by
  have h0 : 0 ≤ dot v v := by
    unfold dot; nlinarith [sq_nonneg (v 0), sq_nonneg (v 1), sq_nonneg (v 2)]
  rcases h0.lt_or_eq with h' | h'
  · exact h'
  · exfalso
    apply h
    unfold dot at h'
    have e0 : v 0 = 0 := by nlinarith [sq_nonneg (v 0), sq_nonneg (v 1), sq_nonneg (v 2)]
    have e1 : v 1 = 0 := by nlinarith [sq_nonneg (v 0), sq_nonneg (v 1), sq_nonneg (v 2)]
    have e2 : v 2 = 0 := by nlinarith [sq_nonneg (v 0), sq_nonneg (v 1), sq_nonneg (v 2)]
    funext i
    fin_cases i
    · exact e0
    · exact e1
    · exact e2

theorem normalise_some {v w : Vec ℝ} (h : normalise v = some w) :
    ∃ n, 0 < n ∧ n ^ 2 = dot v v ∧ ∀ i, w i = v i / n := by
  unfold normalise at h
  simp only [Option.bind_eq_bind, Option.bind_eq_some_iff] at h
  obtain ⟨a, ha, b, hb, c, hc, h⟩ := h
  obtain ⟨hn, rfl⟩ := cdiv_some ha
  obtain ⟨-, rfl⟩ := cdiv_some hb
  obtain ⟨-, rfl⟩ := cdiv_some hc
  refine ⟨_, lt_of_le_of_ne (Real.sqrt_nonneg _) (Ne.symm hn), ?_, ?_⟩
  · rw [Real.sq_sqrt (by positivity)]; unfold dot; ring
  · intro i
    rw [← Option.some.inj h]
    fin_cases i <;> rfl

theorem diagonalise_some {cfg : Config} {t : Tensor} {q s qn sn err : ℝ} {major inter minor : Vec ℝ}
    (hq : 0 < q) (hs : 0 < s)
    (hsol : IsEigen t (cfg.solver t))
    (hpsd : ∀ v : Vec ℝ, 0 ≤ v 0 * (t 0 0 * v 0 + t 0 1 * v 1 + t 0 2 * v 2) +
      v 1 * (t 1 0 * v 0 + t 1 1 * v 1 + t 1 2 * v 2) + v 2 * (t 2 0 * v 0 + t 2 1 * v 1 + t 2 2 * v 2))
    (h : diagonalise cfg t q s = some (qn, sn, err, major, inter, minor)) :
    Orthonormal major inter minor ∧
    (∃ a b c : ℝ, 0 < a ∧ c ≤ b ∧ b ≤ a ∧ 0 ≤ c ∧ qn = b / a ∧ sn = c / a ∧
      IsEigenvector t (a ^ 2) major ∧ IsEigenvector t (b ^ 2) inter ∧ IsEigenvector t (c ^ 2) minor) ∧
    (∀ tol, err ≤ tol → |qn - q| ≤ tol * q ∧ |sn - s| ≤ tol * s) := by
  unfold diagonalise at h
  simp only [Option.bind_eq_bind, Option.bind_eq_some_iff] at h
  obtain ⟨q2, hq2, s2, hs2, eq, heq, es, hes, major', hmaj, inter', hint, minor', hmin, h⟩ := h
  simp only [Option.some.injEq, Prod.mk.injEq] at h
  obtain ⟨rfl, rfl, rfl, rfl, rfl, rfl⟩ := h
  obtain ⟨hv2, rfl⟩ := cdiv_some hq2
  obtain ⟨-, rfl⟩ := cdiv_some hs2
  obtain ⟨-, rfl⟩ := cdiv_some heq
  obtain ⟨-, rfl⟩ := cdiv_some hes
  obtain ⟨n2, p2, e2, w2⟩ := normalise_some hmaj
  obtain ⟨n1, p1, e1, w1⟩ := normalise_some hint
  obtain ⟨n0, p0, e0, w0⟩ := normalise_some hmin
  set e := cfg.solver t with he
  have hval : ∀ k, 0 ≤ e.val k := by
    intro k
    have h1 := hpsd (e.vec k)
    rw [hsol.eigen k 0, hsol.eigen k 1, hsol.eigen k 2] at h1
    have h2 := dot_self_pos (hsol.nonzero k)
    have h3 : e.vec k 0 * (e.val k * e.vec k 0) + e.vec k 1 * (e.val k * e.vec k 1) +
        e.vec k 2 * (e.val k * e.vec k 2) = e.val k * dot (e.vec k) (e.vec k) := by
      unfold dot; ring
    rw [h3] at h1
    by_contra hneg
    push Not at hneg
    nlinarith
  have hself : ∀ (w v : Vec ℝ) (n : ℝ), 0 < n → n ^ 2 = dot v v → (∀ i, w i = v i / n) →
      dot w w = 1 := by
    intro w v n hn hd hw
    have : dot w w = dot v v / n ^ 2 := by
      unfold dot; rw [hw 0, hw 1, hw 2]; field_simp
    rw [this, ← hd, div_self (by positivity)]
  have hcross : ∀ (w v : Vec ℝ) (n : ℝ) (w' v' : Vec ℝ) (n' : ℝ), 0 < n → 0 < n' → dot v v' = 0 →
      (∀ i, w i = v i / n) → (∀ i, w' i = v' i / n') → dot w w' = 0 := by
    intro w v n w' v' n' hn hn' hd hw hw'
    have : dot w w' = dot v v' / (n * n') := by
      unfold dot; rw [hw 0, hw 1, hw 2, hw' 0, hw' 1, hw' 2]; field_simp
    rw [this, hd, zero_div]
  have hev : ∀ (w v : Vec ℝ) (n l : ℝ), 0 < n → (∀ i, w i = v i / n) → IsEigenvector t l v →
      IsEigenvector t l w := by
    intro w v n l hn hw h i
    have := h i
    rw [hw 0, hw 1, hw 2, hw i]
    have hn := hn.ne'
    field_simp
    linarith
  have hpos2 : 0 < e.val 2 := lt_of_le_of_ne (hval 2) (Ne.symm hv2)
  refine ⟨⟨hself _ _ _ p2 e2 w2, hself _ _ _ p1 e1 w1, hself _ _ _ p0 e0 w0,
    hcross _ _ _ _ _ _ p2 p1 (hsol.orth 2 1 (by decide)) w2 w1,
    hcross _ _ _ _ _ _ p2 p0 (hsol.orth 2 0 (by decide)) w2 w0,
    hcross _ _ _ _ _ _ p1 p0 (hsol.orth 1 0 (by decide)) w1 w0⟩, ?_, ?_⟩
  · refine ⟨√(e.val 2), √(e.val 1), √(e.val 0), Real.sqrt_pos.2 hpos2,
      Real.sqrt_le_sqrt hsol.ordered.1, Real.sqrt_le_sqrt hsol.ordered.2, Real.sqrt_nonneg _,
      Real.sqrt_div (hval 1) _, Real.sqrt_div (hval 0) _, ?_, ?_, ?_⟩
    · rw [Real.sq_sqrt (hval 2)]; exact hev _ _ _ _ p2 w2 (hsol.eigen 2)
    · rw [Real.sq_sqrt (hval 1)]; exact hev _ _ _ _ p1 w1 (hsol.eigen 1)
    · rw [Real.sq_sqrt (hval 0)]; exact hev _ _ _ _ p0 w0 (hsol.eigen 0)
  · intro tol htol
    have h1 := (le_max_left _ _).trans htol
    have h2 := (le_max_right _ _).trans htol
    rw [div_le_iff₀ hq] at h1
    rw [div_le_iff₀ hs] at h2
    exact ⟨h1, h2⟩

/-! ## Membership -/

theorem toPrinc_eq (cfg : Config) (major inter minor : Vec ℝ) (p : Pt) :
    toPrinc cfg major inter minor p =
      ![dot major (rel cfg p), dot inter (rel cfg p), dot minor (rel cfg p)] := rfl

theorem ellRadius2_some {q s : ℝ} {y : Vec ℝ} {r : ℝ} (h : ellRadius2 q s y = some r) :
    q ≠ 0 ∧ s ≠ 0 ∧ r = y 0 ^ 2 + y 1 ^ 2 / q ^ 2 + y 2 ^ 2 / s ^ 2 := by
  unfold ellRadius2 at h
  simp only [Option.bind_eq_bind, Option.bind_eq_some_iff] at h
  obtain ⟨b, hb, c, hc, h⟩ := h
  obtain ⟨h1, rfl⟩ := cdiv_some hb
  obtain ⟨h2, rfl⟩ := cdiv_some hc
  exact ⟨fun h => h1 (by rw [h]; ring), fun h => h2 (by rw [h]; ring), (Option.some.inj h).symm⟩

open Classical in
theorem laterTest_some {cfg : Config} {q s : ℝ} {major inter minor : Vec ℝ} {p : Pt} {b : Bool}
    (h : laterTest cfg q s (toPrinc cfg major inter minor p) = some b) :
    b = decide (Inside cfg major inter minor q s p) := by
  unfold laterTest at h
  simp only [Option.bind_eq_bind, Option.bind_eq_some_iff] at h
  obtain ⟨r2, hr2, h⟩ := h
  obtain ⟨-, -, hr⟩ := ellRadius2_some hr2
  have hr : r2 = ellipsoidal2 major inter minor q s (rel cfg p) := by
    rw [hr, toPrinc_eq]; rfl
  rw [hr] at h
  have key : ∀ (P : Prop) , (b = true ↔ P) → b = decide P := by
    intro P hP; cases b <;> simp_all
  apply key
  unfold Inside
  by_cases hlt : ellipsoidal2 major inter minor q s (rel cfg p) < cfg.d ^ 2
  · rw [if_pos hlt] at h
    cases hd : cfg.deltaD with
    | none =>
      rw [hd] at h
      have h := Option.some.inj h
      simp [← h, hlt]
    | some δ =>
      rw [hd] at h
      simp only at h
      by_cases hδ : cfg.d = δ
      · rw [if_pos hδ] at h
        have h := Option.some.inj h
        simp only [← h, hlt, true_and, true_iff]
        rintro δ' hδ' hne
        rw [Option.some.injEq] at hδ'
        exact absurd (hδ.trans hδ') hne
      · rw [if_neg hδ] at h
        unfold innerTest at h
        simp only [Option.bind_eq_bind, Option.bind_eq_some_iff] at h
        obtain ⟨a, ha, b', hb, c, hc, h⟩ := h
        obtain ⟨-, rfl⟩ := cdiv_some ha
        obtain ⟨-, rfl⟩ := cdiv_some hb
        obtain ⟨-, rfl⟩ := cdiv_some hc
        have h := Option.some.inj h
        rw [← h, decide_eq_true_eq, toPrinc_eq]
        constructor
        · intro hge
          refine ⟨hlt, ?_⟩
          rintro δ' hδ' hne
          obtain rfl := Option.some.inj hδ'
          exact hge
        · rintro ⟨-, hge⟩
          exact hge δ rfl hδ
  · rw [if_neg hlt] at h
    have h := Option.some.inj h
    simp [← h, hlt]

/-- Standard axes. -/
def ex : Vec ℝ := ![1, 0, 0]
/-- Second axis. -/
def ey : Vec ℝ := ![0, 1, 0]
/-- Third axis. -/
def ez : Vec ℝ := ![0, 0, 1]

theorem std_orthonormal : Orthonormal ex ey ez := by
  simp [Orthonormal, dot, ex, ey, ez]

theorem dot_ex (y : Vec ℝ) : dot ex y = y 0 := by simp [dot, ex]
theorem dot_ey (y : Vec ℝ) : dot ey y = y 1 := by simp [dot, ey]
theorem dot_ez (y : Vec ℝ) : dot ez y = y 2 := by simp [dot, ez]

theorem ellipsoidal2_std (cfg : Config) (p : Pt) :
    ellipsoidal2 ex ey ez 1 1 (rel cfg p) = Binning.dist2 cfg.center p.x := by
  unfold ellipsoidal2 Binning.dist2
  rw [dot_ex, dot_ey, dot_ez]
  unfold rel; ring

open Classical in
theorem initialTest_eq (cfg : Config) (p : Pt) :
    initialTest cfg p = decide (Inside cfg ex ey ez 1 1 p) := by
  unfold initialTest Inside
  rw [ellipsoidal2_std]
  cases hd : cfg.deltaD with
  | none => simp
  | some δ =>
    simp only
    rw [decide_eq_decide]
    apply and_congr_right
    intro _
    rw [dot_ex, dot_ey, dot_ez]
    simp only [Option.some.injEq, ne_eq, forall_eq', one_mul]
    rw [← add_div, ← add_div]
    have hn : rel cfg p 0 ^ 2 + rel cfg p 1 ^ 2 + rel cfg p 2 ^ 2 = Binning.dist2 cfg.center p.x := by
      unfold rel Binning.dist2; ring
    rw [hn]
    by_cases hδ : cfg.d = δ
    · have : (0 : ℝ) ≤ Binning.dist2 cfg.center p.x := by unfold Binning.dist2; positivity
      simp [hδ, this]
    · have : 0 < (cfg.d - δ) ^ 2 := by
        have : cfg.d - δ ≠ 0 := sub_ne_zero.2 hδ
        positivity
      rw [le_div_iff₀ this]
      simp [hδ]

theorem radius0_sq (cfg : Config) (p : Pt) :
    radius0 cfg p ^ 2 = ellipsoidal2 ex ey ez 1 1 (rel cfg p) := by
  unfold radius0
  rw [Real.sq_sqrt (by positivity), ellipsoidal2_std]
  unfold Binning.dist2; ring

/-! ## Selection -/

theorem mapM_map_some {α β γ : Type} (f : β → Option γ) (g : α → β) (l : List α) (r : List γ)
    (h : (l.map g).mapM f = some r) : List.Forall₂ (fun a c => f (g a) = some c) l r := by
  induction l generalizing r with
  | nil => simp at h; subst h; exact .nil
  | cons a l ih =>
    rw [List.map_cons, List.mapM_cons] at h
    simp only [Option.bind_eq_bind, Option.bind_eq_some_iff] at h
    obtain ⟨c, hc, cs, hcs, h⟩ := h
    obtain rfl := Option.some.inj h
    exact .cons hc (ih cs hcs)

/-- The selection is the filtered list of particles, annotated with radii. -/
theorem select_spec (pts : List Pt) (rs : List ℝ) (tests : List Bool) (P : Pt → Bool) (rho : Pt → ℝ)
    (h1 : List.Forall₂ (fun p r => r = rho p) pts rs)
    (h2 : List.Forall₂ (fun p b => b = P p) pts tests) :
    select pts rs tests = (pts.filter P).map fun p => (p, rho p) := by
  unfold select
  induction pts generalizing rs tests with
  | nil => cases h1; cases h2; rfl
  | cons p pts ih =>
    cases h1 with
    | cons e1 h1 =>
      cases h2 with
      | cons e2 h2 =>
        subst e1 e2
        have := ih _ _ h1 h2
        rw [List.zip_cons_cons, List.zip_cons_cons, List.filterMap_cons]
        by_cases hP : P p = true
        · simp [hP, this]
        · simp [hP, this]

end Verif.Shapes
