import Verif.Shapes.Objects
import Mathlib.Analysis.Matrix.Spectrum

/-!
# Concrete inputs for the shape theorems

Existence of an eigenvalue routine with the assumed properties, and a cross-shaped object for which the
iteration converges, whatever such routine is used.
-/

namespace Verif.Shapes

/-! ## An eigenvalue routine exists -/

theorem exists_eigen (t : Tensor) (ht : ∀ i j, t i j = t j i) : ∃ e, IsEigen t e := by
  have hH : (Matrix.of t).IsHermitian := by
    apply Matrix.IsHermitian.ext
    intro i j
    simp [ht i j]
  let b := hH.eigenvectorBasis
  -- sort the eigenvalues
  let σ := Tuple.sort hH.eigenvalues
  refine ⟨⟨fun k => hH.eigenvalues (σ k), fun k i => b (σ k) i⟩, ?_, ?_, ?_, ?_⟩
  · have := Tuple.monotone_sort hH.eigenvalues
    exact ⟨this (by decide), this (by decide)⟩
  · intro k i
    have h := congrFun (hH.mulVec_eigenvectorBasis (σ k)) i
    simp only [Matrix.mulVec, dotProduct, Fin.sum_univ_three, Matrix.of_apply, Pi.smul_apply,
      smul_eq_mul] at h
    exact h
  · intro k l hkl
    have h := b.orthonormal.2 (i := σ k) (j := σ l) (fun h => hkl (σ.injective h))
    simp only [PiLp.inner_apply, Fin.sum_univ_three, RCLike.inner_apply, conj_trivial] at h
    unfold dot
    linarith
  · intro k h
    have h1 := b.orthonormal.1 (σ k)
    have : b (σ k) = 0 := by
      ext i
      exact congrFun h i
    rw [this] at h1
    simp at h1

theorem exists_goodSolver : ∃ sol : Solver, GoodSolver sol := by
  classical
  refine ⟨fun t => if h : ∀ i j, t i j = t j i then (exists_eigen t h).choose else ⟨0, 0⟩, ?_⟩
  intro t h
  simp only [dif_pos h]
  exact (exists_eigen t h).choose_spec

/-! ## Diagonal tensors -/

theorem eigen_diag (a b c : ℝ) (hcb : c < b) (hba : b < a) (e : Eigen)
    (h : IsEigen ![![a, 0, 0], ![0, b, 0], ![0, 0, c]] e) :
    e.val 0 = c ∧ e.val 1 = b ∧ e.val 2 = a ∧ ∃ x y z : ℝ, x ≠ 0 ∧ y ≠ 0 ∧ z ≠ 0 ∧
      e.vec 2 = ![x, 0, 0] ∧ e.vec 1 = ![0, y, 0] ∧ e.vec 0 = ![0, 0, z] := by
  have hD : ∀ k, (a * e.vec k 0 = e.val k * e.vec k 0) ∧ (b * e.vec k 1 = e.val k * e.vec k 1) ∧
      (c * e.vec k 2 = e.val k * e.vec k 2) := by
    intro k
    have h0 := h.eigen k 0
    have h1 := h.eigen k 1
    have h2 := h.eigen k 2
    simp at h0 h1 h2
    refine ⟨?_, ?_, ?_⟩
    · rcases h0 with h0 | h0 <;> simp [h0]
    · rcases h1 with h1 | h1 <;> simp [h1]
    · rcases h2 with h2 | h2 <;> simp [h2]
  have cases3 : ∀ k, (e.val k = a ∧ ∃ x, x ≠ 0 ∧ e.vec k = ![x, 0, 0]) ∨
      (e.val k = b ∧ ∃ y, y ≠ 0 ∧ e.vec k = ![0, y, 0]) ∨
      (e.val k = c ∧ ∃ z, z ≠ 0 ∧ e.vec k = ![0, 0, z]) := by
    intro k
    obtain ⟨h0, h1, h2⟩ := hD k
    have ev : ∀ w : Vec ℝ, w = ![w 0, w 1, w 2] := by
      intro w; funext i; fin_cases i <;> rfl
    have canc : ∀ {u l x : ℝ}, u * x = l * x → u ≠ l → x = 0 := by
      intro u l x hx hne
      by_contra hx0
      exact hne (mul_right_cancel₀ hx0 hx)
    have hne := h.nonzero k
    by_cases n0 : e.vec k 0 = 0
    · by_cases n1 : e.vec k 1 = 0
      · have n2 : e.vec k 2 ≠ 0 := by
          intro n2
          apply hne
          rw [ev (e.vec k), n0, n1, n2]
          funext i; fin_cases i <;> rfl
        refine Or.inr (Or.inr ⟨(mul_right_cancel₀ n2 h2).symm, e.vec k 2, n2, ?_⟩)
        rw [ev (e.vec k), n0, n1]; rfl
      · have hv := (mul_right_cancel₀ n1 h1).symm
        have n2 : e.vec k 2 = 0 := canc h2 (by rw [hv]; exact hcb.ne)
        refine Or.inr (Or.inl ⟨hv, e.vec k 1, n1, ?_⟩)
        rw [ev (e.vec k), n0, n2]; rfl
    · have hv := (mul_right_cancel₀ n0 h0).symm
      have n1 : e.vec k 1 = 0 := canc h1 (by rw [hv]; exact hba.ne)
      have n2 : e.vec k 2 = 0 := canc h2 (by rw [hv]; exact (hcb.trans hba).ne)
      refine Or.inl ⟨hv, e.vec k 0, n0, ?_⟩
      rw [ev (e.vec k), n1, n2]; rfl
  obtain ⟨o1, o2⟩ := h.ordered
  have p01 := h.orth 0 1 (by decide)
  have p12 := h.orth 1 2 (by decide)
  unfold dot at p01 p12
  rcases cases3 0 with ⟨v0, x0, n0, e0⟩ | ⟨v0, x0, n0, e0⟩ | ⟨v0, x0, n0, e0⟩ <;>
  rcases cases3 1 with ⟨v1, x1, n1, e1⟩ | ⟨v1, x1, n1, e1⟩ | ⟨v1, x1, n1, e1⟩ <;>
  rcases cases3 2 with ⟨v2, x2, n2, e2⟩ | ⟨v2, x2, n2, e2⟩ | ⟨v2, x2, n2, e2⟩ <;>
  first
  | exact ⟨v0, v1, v2, x2, x1, x0, n2, n1, n0, e2, e1, e0⟩
  | (exfalso; rw [v0, v1] at o1; rw [v1, v2] at o2; linarith)
  | (exfalso; rw [e0, e1] at p01; simp at p01; tauto)
  | (exfalso; rw [e1, e2] at p12; simp at p12; tauto)

/-! ## A cross-shaped object -/

/-- Six particles at `±3`, `±2`, `±1` on the coordinate axes. -/
def crossPts : List Pt :=
  [⟨![3, 0, 0], ![3, 0, 0], 1⟩, ⟨![-3, 0, 0], ![-3, 0, 0], 1⟩,
   ⟨![0, 2, 0], ![0, 2, 0], 1⟩, ⟨![0, -2, 0], ![0, -2, 0], 1⟩,
   ⟨![0, 0, 1], ![0, 0, 1], 1⟩, ⟨![0, 0, -1], ![0, 0, -1], 1⟩]

/-- Its shape is asked for inside a radius of 100. -/
noncomputable def crossCfg (sol : Solver) : Config :=
  ⟨crossPts, ![0, 0, 0], ![0, 0, 0], 100, none, 1 / 10, 100, 6, false, sol⟩

theorem vec3_0 (a b c : ℝ) : ![a, b, c] 0 = a := rfl
theorem vec3_1 (a b c : ℝ) : ![a, b, c] 1 = b := rfl
theorem vec3_2 (a b c : ℝ) : ![a, b, c] 2 = c := rfl

theorem cross_tensor (sol : Solver) (r1 r2 r3 r4 r5 r6 : ℝ) :
    pureTensor (crossCfg sol) (crossPts.zip [r1, r2, r3, r4, r5, r6]) =
      some ![![3, 0, 0], ![0, 4 / 3, 0], ![0, 0, 1 / 3]] := by
  unfold pureTensor pureEntry tensorTerm cdiv
  simp only [crossPts, crossCfg, List.zip_cons_cons, List.zip_nil_right, List.map_cons, List.map_nil,
    List.sum_cons, List.sum_nil, List.foldlM_cons, List.foldlM_nil, Option.bind_eq_bind,
    vec3_0, vec3_1, vec3_2]
  norm_num

theorem normalise_axis (v : Vec ℝ) (hv : v ≠ 0) :
    normalise v = some fun i => v i / √(dot v v) := by
  have hp := dot_self_pos hv
  have hn : √(v 0 ^ 2 + v 1 ^ 2 + v 2 ^ 2) = √(dot v v) := by
    congr 1; unfold dot; ring
  have hs : √(dot v v) ≠ 0 := (Real.sqrt_pos.2 hp).ne'
  unfold normalise
  rw [hn]
  simp only [cdiv_of_ne hs, Option.bind_eq_bind, Option.bind_some]
  congr 1
  funext i
  fin_cases i <;> rfl

theorem sqrt_four_ninths : √(4 / 9 : ℝ) = 2 / 3 := by
  rw [show (4 / 9 : ℝ) = (2 / 3) ^ 2 by norm_num, Real.sqrt_sq (by norm_num)]

theorem sqrt_one_ninth : √(1 / 9 : ℝ) = 1 / 3 := by
  rw [show (1 / 9 : ℝ) = (1 / 3) ^ 2 by norm_num, Real.sqrt_sq (by norm_num)]

/-- One iteration, from ratios `q, s`. -/
theorem cross_diagonalise (sol : Solver) (hsol : GoodSolver sol) (q s : ℝ) (hq : q ≠ 0) (hs : s ≠ 0) :
    ∃ x y z : ℝ, x ^ 2 = 1 ∧ y ^ 2 = 1 ∧ z ^ 2 = 1 ∧
      diagonalise (crossCfg sol) ![![3, 0, 0], ![0, 4 / 3, 0], ![0, 0, 1 / 3]] q s =
      some (2 / 3, 1 / 3, max (|2 / 3 - q| / q) (|1 / 3 - s| / s), ![x, 0, 0], ![0, y, 0],
        ![0, 0, z]) := by
  have hE := hsol ![![3, 0, 0], ![0, 4 / 3, 0], ![0, 0, 1 / 3]] (by
    intro i j; fin_cases i <;> fin_cases j <;> simp)
  obtain ⟨v0, v1, v2, x, y, z, hx, hy, hz, e2, e1, e0⟩ :=
    eigen_diag 3 (4 / 3) (1 / 3) (by norm_num) (by norm_num) _ hE
  have sq : ∀ x : ℝ, x ≠ 0 → (x / √(x * x)) ^ 2 = 1 := by
    intro x hx
    rw [div_pow, Real.sq_sqrt (mul_self_nonneg x), ← pow_two, div_self (pow_ne_zero 2 hx)]
  refine ⟨x / √(x * x), y / √(y * y), z / √(z * z), sq x hx, sq y hy, sq z hz, ?_⟩
  unfold diagonalise
  simp only [crossCfg]
  have n2 : (sol ![![3, 0, 0], ![0, 4 / 3, 0], ![0, 0, 1 / 3]]).vec 2 ≠ 0 := hE.nonzero 2
  have n1 : (sol ![![3, 0, 0], ![0, 4 / 3, 0], ![0, 0, 1 / 3]]).vec 1 ≠ 0 := hE.nonzero 1
  have n0 : (sol ![![3, 0, 0], ![0, 4 / 3, 0], ![0, 0, 1 / 3]]).vec 0 ≠ 0 := hE.nonzero 0
  rw [normalise_axis _ n2, normalise_axis _ n1, normalise_axis _ n0, v0, v1, v2, e0, e1, e2]
  rw [cdiv_of_ne (by norm_num : (3 : ℝ) ≠ 0), cdiv_of_ne (by norm_num : (3 : ℝ) ≠ 0)]
  simp only [Option.bind_eq_bind, Option.bind_some]
  rw [show (4 / 3 / 3 : ℝ) = 4 / 9 by norm_num, show (1 / 3 / 3 : ℝ) = 1 / 9 by norm_num,
    sqrt_four_ninths, sqrt_one_ninth, cdiv_of_ne hq, cdiv_of_ne hs]
  simp only [Option.bind_some, Option.some.injEq, Prod.mk.injEq, true_and]
  refine ⟨?_, ?_, ?_⟩ <;>
  · funext i
    fin_cases i <;> simp [dot]

theorem cross_select (r1 r2 r3 r4 r5 r6 : ℝ) :
    select crossPts [r1, r2, r3, r4, r5, r6] [true, true, true, true, true, true] =
      crossPts.zip [r1, r2, r3, r4, r5, r6] := by
  simp [select, crossPts]

theorem cross_iterate (sol : Solver) (hsol : GoodSolver sol) (st : PState)
    (hq : st.q ≠ 0) (hs : st.s ≠ 0) (r1 r2 r3 r4 r5 r6 : ℝ)
    (hsel : st.sel = crossPts.zip [r1, r2, r3, r4, r5, r6]) :
    ∃ x y z t1 t2 t3 t4 t5 t6 : ℝ, x ^ 2 = 1 ∧ y ^ 2 = 1 ∧ z ^ 2 = 1 ∧
      pureIterate (crossCfg sol) st = some
        ⟨2 / 3, 1 / 3, max (|2 / 3 - st.q| / st.q) (|1 / 3 - st.s| / st.s), st.iteration + 1,
          crossPts.zip [t1, t2, t3, t4, t5, t6],
          ⟨100, 2 / 3, 1 / 3, ![x, 0, 0], ![0, y, 0], ![0, 0, z]⟩⟩ := by
  obtain ⟨x, y, z, hx, hy, hz, hd⟩ := cross_diagonalise sol hsol st.q st.s hq hs
  have hr : ∀ w : Vec ℝ, ellRadius2 (2 / 3) (1 / 3) w =
      some (w 0 ^ 2 + w 1 ^ 2 / (2 / 3) ^ 2 + w 2 ^ 2 / (1 / 3) ^ 2) := by
    intro w
    unfold ellRadius2
    rw [cdiv_of_ne (by norm_num), cdiv_of_ne (by norm_num)]
    rfl
  have ht : ∀ w : Vec ℝ, w 0 ^ 2 + w 1 ^ 2 / (2 / 3) ^ 2 + w 2 ^ 2 / (1 / 3) ^ 2 < 100 ^ 2 →
      laterTest (crossCfg sol) (2 / 3) (1 / 3) w = some true := by
    intro w hw
    unfold laterTest
    rw [hr]
    simp only [Option.bind_eq_bind, Option.bind_some]
    rw [if_pos (by exact hw)]
    rfl
  unfold pureIterate
  rw [hsel, cross_tensor]
  simp only [Option.bind_eq_bind, Option.bind_some]
  rw [hd]
  simp only [Option.bind_some]
  have hp : (crossCfg sol).pts.map (toPrinc (crossCfg sol) ![x, 0, 0] ![0, y, 0] ![0, 0, z]) =
      [![x * 3, 0, 0], ![x * -3, 0, 0], ![0, y * 2, 0], ![0, y * -2, 0], ![0, 0, z], ![0, 0, -z]] := by
    simp [crossCfg, crossPts, toPrinc]
  rw [hp]
  have hpow : ∀ u c : ℝ, u ^ 2 = 1 → (u * c) ^ 2 = c ^ 2 := by
    intro u c hu; rw [mul_pow, hu, one_mul]
  simp only [List.mapM_cons, List.mapM_nil, hr, Option.map_some, Option.bind_eq_bind,
    Option.bind_some, Option.pure_def]
  have hneg : ∀ u : ℝ, u ^ 2 = 1 → (-u) ^ 2 = 1 := by intro u hu; rw [neg_sq, hu]
  rw [ht ![x * 3, 0, 0] (by rw [vec3_0, vec3_1, vec3_2, hpow x _ hx]; norm_num),
    ht ![x * -3, 0, 0] (by rw [vec3_0, vec3_1, vec3_2, hpow x _ hx]; norm_num),
    ht ![0, y * 2, 0] (by rw [vec3_0, vec3_1, vec3_2, hpow y _ hy]; norm_num),
    ht ![0, y * -2, 0] (by rw [vec3_0, vec3_1, vec3_2, hpow y _ hy]; norm_num),
    ht ![0, 0, z] (by rw [vec3_0, vec3_1, vec3_2, hz]; norm_num),
    ht ![0, 0, -z] (by rw [vec3_0, vec3_1, vec3_2, hneg z hz]; norm_num)]
  simp only [Option.bind_some]
  have hpts : (crossCfg sol).pts = crossPts := rfl
  rw [hpts, cross_select]
  exact ⟨x, y, z, _, _, _, _, _, _, hx, hy, hz, rfl⟩

/-- The iteration converges for the cross, for every eigenvalue routine with the assumed properties:
`q = 2/3`, `s = 1/3`, axes along the coordinate axes. -/
theorem cross_run (sol : Solver) (hsol : GoodSolver sol) (morph : Morph) :
    ∃ x y z : ℝ, x ^ 2 = 1 ∧ y ^ 2 = 1 ∧ z ^ 2 = 1 ∧ ∀ fuel, 3 ≤ fuel →
      pureRun fuel (crossCfg sol) morph =
        some (some ⟨100, 2 / 3, 1 / 3, ![x, 0, 0], ![0, y, 0], ![0, 0, z]⟩) := by
  have hinit : ∀ p ∈ crossPts, initialTest (crossCfg sol) p = true := by
    intro p hp
    simp only [crossPts, List.mem_cons, List.not_mem_nil, or_false] at hp
    rcases hp with rfl | rfl | rfl | rfl | rfl | rfl <;>
    · norm_num [initialTest, crossCfg, Binning.dist2, vec3_2]
  have hsel0 : ∃ r1 r2 r3 r4 r5 r6, (pureStart (crossCfg sol) morph).sel =
      crossPts.zip [r1, r2, r3, r4, r5, r6] := by
    have : (crossCfg sol).pts.map (initialTest (crossCfg sol)) =
        [true, true, true, true, true, true] := by
      simp only [show (crossCfg sol).pts = crossPts from rfl]
      unfold crossPts at hinit ⊢
      simp only [List.map_cons, List.map_nil]
      rw [hinit _ (by simp), hinit _ (by simp), hinit _ (by simp), hinit _ (by simp),
        hinit _ (by simp), hinit _ (by simp)]
    unfold pureStart
    simp only
    rw [this]
    exact ⟨_, _, _, _, _, _, cross_select _ _ _ _ _ _⟩
  obtain ⟨r1, r2, r3, r4, r5, r6, hsel0⟩ := hsel0
  obtain ⟨x1, y1, z1, t1, t2, t3, t4, t5, t6, hx1, hy1, hz1, hit1⟩ := cross_iterate sol hsol
    (pureStart (crossCfg sol) morph) one_ne_zero one_ne_zero r1 r2 r3 r4 r5 r6 hsel0
  have hlen : ∀ u1 u2 u3 u4 u5 u6 : ℝ, (crossPts.zip [u1, u2, u3, u4, u5, u6]).length = 6 := by
    intros; rfl
  -- one step
  have step : ∀ st st' : PState, st.err > 1 / 10 → (st.iteration : Int) ≤ 100 → st.sel.length = 6 →
      pureIterate (crossCfg sol) st = some st' → pureStep (crossCfg sol) st = .go st' := by
    intro st st' h1 h2 h3 h4
    unfold pureStep
    rw [if_pos (show st.err > (crossCfg sol).tol from h1),
      if_neg (show ¬ (st.iteration : Int) > (crossCfg sol).wall from not_lt.2 h2), h3,
      if_neg (show ¬ ((6 : Nat) : Int) < (crossCfg sol).itMin from by simp [crossCfg]), h4]
  have s1 := step _ _ (by simp [pureStart]; norm_num) (by simp [pureStart])
    (by rw [hsel0]; exact hlen _ _ _ _ _ _) hit1
  obtain ⟨x2, y2, z2, u1, u2, u3, u4, u5, u6, hx2, hy2, hz2, hit2⟩ := cross_iterate sol hsol
    ⟨2 / 3, 1 / 3, max (|2 / 3 - (pureStart (crossCfg sol) morph).q| / (pureStart (crossCfg sol) morph).q)
      (|1 / 3 - (pureStart (crossCfg sol) morph).s| / (pureStart (crossCfg sol) morph).s),
      (pureStart (crossCfg sol) morph).iteration + 1, crossPts.zip [t1, t2, t3, t4, t5, t6],
      ⟨100, 2 / 3, 1 / 3, ![x1, 0, 0], ![0, y1, 0], ![0, 0, z1]⟩⟩
    (by norm_num) (by norm_num) t1 t2 t3 t4 t5 t6 rfl
  have s2 := step _ _ (by
    apply lt_max_of_lt_left
    simp only [pureStart]
    rw [abs_of_neg (by norm_num)]; norm_num) (by simp [pureStart]) (hlen _ _ _ _ _ _) hit2
  refine ⟨x2, y2, z2, hx2, hy2, hz2, ?_⟩
  intro fuel hf
  refine loop_mono _ 3 fuel _ _ hf ?_
  simp only [loop]
  rw [s1]
  simp only
  rw [s2]
  simp only
  have s3 : ∀ st : PState, st.err = 0 → pureStep (crossCfg sol) st = .stop (some st.morph) := by
    intro st h
    unfold pureStep
    rw [if_neg (by rw [h]; simp [crossCfg])]
  rw [s3 _ (by simp)]

end Verif.Shapes
