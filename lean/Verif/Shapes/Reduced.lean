import Verif.Shapes.Stratified

/-!
# The reduced shape tensor counts directions, not distances (C167)

cosmic_profiles/cython_helpers/helper_class.pyx:50-54: with `reduced` every particle is divided by its squared ellipsoidal radius.
-/

namespace Verif.Shapes

/-! ## Specification -/

/-- The particle `p'` of the second problem has the mass of `p` and is seen from the centre in the same direction, at any
distance; and whenever one of them is inside an ellipsoid met by the iteration, so is the other. -/
def SameRay (cfg cfg' : Config) (p p' : Pt) : Prop :=
  p'.m = p.m ∧ (∃ l : ℝ, 0 < l ∧ ∀ i, p'.x i - cfg'.center i = l * (p.x i - cfg.center i)) ∧
  ∀ n e, Reached cfg n e → (Inside cfg' e.major e.inter e.minor e.q e.s p' ↔ Inside cfg e.major e.inter e.minor e.q e.s p)

/-- Two problems for the reduced shape tensor (positions, ellipsoids) which differ in the distances of particles from the centre and in where the
centre is. -/
structure SameDirections (cfg cfg' : Config) : Prop where
  pts : List.Forall₂ (SameRay cfg cfg') cfg.pts cfg'.pts
  positions : (∀ p ∈ cfg.pts, p.src = p.x) ∧ cfg.srcCenter = cfg.center
  positions' : (∀ p ∈ cfg'.pts, p.src = p.x) ∧ cfg'.srcCenter = cfg'.center
  reduced : cfg.reduced = true ∧ cfg'.reduced = true
  full : cfg.deltaD = none ∧ cfg'.deltaD = none
  d : cfg'.d = cfg.d
  tol : cfg'.tol = cfg.tol
  wall : cfg'.wall = cfg.wall
  itMin : cfg'.itMin = cfg.itMin
  solver : cfg'.solver = cfg.solver

/-! ## Proof -/

/-- Selected particles on the same rays, with ellipsoidal radii in proportion. -/
def SelRay (cfg cfg' : Config) (a a' : Pt × ℝ) : Prop :=
  a'.1.m = a.1.m ∧ ∃ l : ℝ, 0 < l ∧ (∀ i, a'.1.src i - cfg'.srcCenter i = l * (a.1.src i - cfg.srcCenter i)) ∧ a'.2 = l * a.2

section
variable {cfg cfg' : Config} (h : SameDirections cfg cfg')
include h

theorem SameDirections.term (mt : ℝ) {a a' : Pt × ℝ} (hr : SelRay cfg cfg' a a') (i j : Fin 3) :
    tensorTerm cfg' mt a'.1 a'.2 i j = tensorTerm cfg mt a.1 a.2 i j := by
  obtain ⟨hm, l, hl, hs, hr⟩ := hr
  unfold tensorTerm cdiv
  rw [h.reduced.1, h.reduced.2, if_pos rfl, if_pos rfl, hm, hs, hs, hr, mul_pow]
  have hl2 : l ^ 2 ≠ 0 := pow_ne_zero 2 hl.ne'
  by_cases h0 : mt * a.2 ^ 2 = 0
  · rw [if_pos h0, if_pos (by rw [mul_left_comm, h0, mul_zero])]
  · rw [if_neg h0, if_neg (by rw [mul_left_comm]; exact mul_ne_zero hl2 h0)]
    congr 1
    rw [show a.1.m * (l * (a.1.src i - cfg.srcCenter i)) * (l * (a.1.src j - cfg.srcCenter j)) =
      l ^ 2 * (a.1.m * (a.1.src i - cfg.srcCenter i) * (a.1.src j - cfg.srcCenter j)) by ring, mul_left_comm mt]
    exact mul_div_mul_left _ _ hl2

theorem SameDirections.tensor {sel sel' : Sel} (hs : List.Forall₂ (SelRay cfg cfg') sel sel') :
    pureTensor cfg' sel' = pureTensor cfg sel := by
  have hmass : (sel'.map fun pr => pr.1.m).sum = (sel.map fun pr => pr.1.m).sum := by
    induction hs with
    | nil => rfl
    | cons hr _ ih => rw [List.map_cons, List.map_cons, List.sum_cons, List.sum_cons, ih, hr.1]
  have hentry : ∀ mt i j, pureEntry cfg' mt sel' i j = pureEntry cfg mt sel i j := by
    intro mt i j
    unfold pureEntry
    generalize (0 : ℝ) = acc
    clear hmass
    induction hs generalizing acc with
    | nil => rfl
    | @cons a a' l l' hr _ ih =>
      rw [List.foldlM_cons, List.foldlM_cons, h.term mt hr]
      cases tensorTerm cfg mt a.1 a.2 i j with
      | none => rfl
      | some x => exact ih (acc + x)
  unfold pureTensor
  simp only [hmass, hentry]

open Classical in
theorem SameDirections.members {n : Nat} {e : Ellipsoid} (hr : Reached cfg n e) :
    List.Forall₂ (SelRay cfg cfg')
      ((members cfg e).map fun p => (p, √(ellipsoidal2 e.major e.inter e.minor e.q e.s (rel cfg p))))
      ((members cfg' e).map fun p => (p, √(ellipsoidal2 e.major e.inter e.minor e.q e.s (rel cfg' p)))) := by
  have hp := h.positions
  have hp' := h.positions'
  have hpts := h.pts
  unfold Shapes.members
  generalize cfg.pts = l at hp hpts
  generalize cfg'.pts = l' at hp' hpts
  induction hpts with
  | nil => exact .nil
  | @cons p p' l l' hray _ ih =>
    have ih := ih ⟨fun q hq => hp.1 q (List.mem_cons_of_mem _ hq), hp.2⟩ ⟨fun q hq => hp'.1 q (List.mem_cons_of_mem _ hq), hp'.2⟩
    obtain ⟨hm, ⟨c, hc, hx⟩, hin⟩ := hray
    rw [List.filter_cons, List.filter_cons]
    by_cases hi : Inside cfg e.major e.inter e.minor e.q e.s p
    · rw [if_pos (decide_eq_true hi), if_pos (decide_eq_true ((hin n e hr).2 hi)), List.map_cons, List.map_cons]
      refine .cons ⟨hm, c, hc, ?_, ?_⟩ ih
      · intro i
        show p'.src i - cfg'.srcCenter i = c * (p.src i - cfg.srcCenter i)
        rw [hp'.1 p' List.mem_cons_self, hp.1 p List.mem_cons_self, hp.2, hp'.2]
        exact hx i
      · have e1 : ellipsoidal2 e.major e.inter e.minor e.q e.s (rel cfg' p') =
            c ^ 2 * ellipsoidal2 e.major e.inter e.minor e.q e.s (rel cfg p) := by
          have hd : ∀ u : Vec ℝ, dot u (rel cfg' p') = c * dot u (rel cfg p) := by
            intro u
            unfold dot rel
            rw [hx, hx, hx]
            ring
          unfold ellipsoidal2
          rw [hd, hd, hd]
          ring
        show √(ellipsoidal2 e.major e.inter e.minor e.q e.s (rel cfg' p')) = c * √(ellipsoidal2 e.major e.inter e.minor e.q e.s (rel cfg p))
        rw [e1, Real.sqrt_mul (sq_nonneg c), Real.sqrt_sq hc.le]
    · rw [if_neg (by simpa using hi), if_neg (by simpa using fun x => hi ((hin n e hr).1 x))]
      exact ih

end

/-- States of the two runs. -/
structure StRay (cfg cfg' : Config) (st st' : PState) : Prop where
  q : st'.q = st.q
  s : st'.s = st.s
  err : st'.err = st.err
  iteration : st'.iteration = st.iteration
  morph : st'.morph = st.morph
  at_ : ∃ e, At cfg st e ∧ At cfg' st' e ∧ (st.err > cfg.tol → ∃ n, Reached cfg n e)

theorem ellRadius2_isSome (q s : ℝ) (y : Vec ℝ) : (ellRadius2 q s y).isSome ↔ q ^ 2 ≠ 0 ∧ s ^ 2 ≠ 0 := by
  unfold ellRadius2 cdiv
  by_cases h1 : q ^ 2 = 0
  · simp [h1]
  · by_cases h2 : s ^ 2 = 0
    · simp [h1, h2]
    · simp [h1, h2]

theorem laterTest_isSome {cfg : Config} (hd : cfg.deltaD = none) (q s : ℝ) (y : Vec ℝ) :
    (laterTest cfg q s y).isSome ↔ q ^ 2 ≠ 0 ∧ s ^ 2 ≠ 0 := by
  rw [← ellRadius2_isSome q s y]
  unfold laterTest
  rw [hd]
  cases ellRadius2 q s y with
  | none => simp
  | some r =>
    simp only [Option.bind_eq_bind, Option.bind_some, Option.isSome_some, iff_true]
    split <;> rfl

section
variable {cfg cfg' : Config} (h : SameDirections cfg cfg')
include h

theorem SameDirections.tests {st st' : PState} (hst : StRay cfg cfg' st st') (hgo : st.err > cfg.tol) :
    (pureIterate cfg st = none ∧ pureIterate cfg' st' = none) ∨
    ∃ s1 s1', pureIterate cfg st = some s1 ∧ pureIterate cfg' st' = some s1' ∧ s1'.q = s1.q ∧ s1'.s = s1.s ∧ s1'.err = s1.err ∧
      s1'.iteration = s1.iteration ∧ s1'.morph = s1.morph := by
  obtain ⟨e, he, he', hreach⟩ := hst.at_
  obtain ⟨n, hn⟩ := hreach hgo
  have hten : pureTensor cfg' st'.sel = pureTensor cfg st.sel := by
    rw [he.sel, he'.sel]
    exact h.tensor (h.members hn)
  have hdiag : diagonalise cfg' = diagonalise cfg := by
    funext t q s
    unfold Shapes.diagonalise
    rw [h.solver]
  have hnil : cfg'.pts = [] ↔ cfg.pts = [] := by
    have := h.pts.length_eq
    rw [← List.length_eq_zero_iff, ← List.length_eq_zero_iff, this]
  unfold pureIterate
  rw [hten, hdiag, hst.q, hst.s]
  cases pureTensor cfg st.sel with
  | none => left; exact ⟨rfl, rfl⟩
  | some t =>
    simp only [Option.bind_eq_bind, Option.bind_some]
    cases Shapes.diagonalise cfg t st.q st.s with
    | none => left; exact ⟨rfl, rfl⟩
    | some r =>
      obtain ⟨qn, sn, err, major, inter, minor⟩ := r
      simp only [Option.bind_some]
      rw [List.mapM_map, List.mapM_map, List.mapM_map, List.mapM_map,
        mapM_closed _ (0 : ℝ) cfg.pts, mapM_closed _ (0 : ℝ) cfg'.pts, mapM_closed _ false cfg.pts, mapM_closed _ false cfg'.pts]
      simp only [Function.comp_def, Option.isSome_map, ellRadius2_isSome, laterTest_isSome h.full.1, laterTest_isSome h.full.2]
      by_cases b : ∀ p ∈ cfg.pts, qn ^ 2 ≠ 0 ∧ sn ^ 2 ≠ 0
      · have b' : ∀ p ∈ cfg'.pts, qn ^ 2 ≠ 0 ∧ sn ^ 2 ≠ 0 := by
          intro p' hp'
          cases hl : cfg.pts with
          | nil => rw [hnil.2 hl] at hp'; cases hp'
          | cons p l => exact b p (by rw [hl]; exact List.mem_cons_self)
        rw [if_pos b, if_pos b', if_pos b, if_pos b']
        right
        exact ⟨_, _, rfl, rfl, rfl, rfl, rfl, by simp only [hst.iteration], by simp only [h.d]⟩
      · have b' : ¬ ∀ p ∈ cfg'.pts, qn ^ 2 ≠ 0 ∧ sn ^ 2 ≠ 0 := by
          intro hb
          refine b fun p hp => ?_
          cases hl : cfg'.pts with
          | nil => rw [hnil.1 hl] at hp; cases hp
          | cons p' l => exact hb p' (by rw [hl]; exact List.mem_cons_self)
        rw [if_neg b, if_neg b']
        left; exact ⟨rfl, rfl⟩

theorem SameDirections.lengths {st st' : PState} (hst : StRay cfg cfg' st st') (hgo : st.err > cfg.tol) :
    st'.sel.length = st.sel.length := by
  obtain ⟨e, he, he', hreach⟩ := hst.at_
  obtain ⟨n, hn⟩ := hreach hgo
  rw [he.sel, he'.sel]
  exact (h.members hn).length_eq.symm

theorem SameDirections.step (hsol : GoodSolver cfg.solver) (hm : ∀ p ∈ cfg.pts, 0 ≤ p.m) (hm' : ∀ p ∈ cfg'.pts, 0 ≤ p.m)
    (st st' : PState) (hst : StRay cfg cfg' st st') :
    (∃ r, pureStep cfg st = .stop r ∧ pureStep cfg' st' = .stop r) ∨
    ∃ s1 s1', pureStep cfg st = .go s1 ∧ pureStep cfg' st' = .go s1' ∧ StRay cfg cfg' s1 s1' := by
  unfold pureStep
  rw [hst.err, h.tol]
  by_cases hgo : st.err > cfg.tol
  · rw [if_pos hgo, if_pos hgo, hst.iteration, h.wall, h.itMin, h.lengths hst hgo]
    by_cases hw : (st.iteration : Int) > cfg.wall
    · rw [if_pos hw, if_pos hw]; exact .inl ⟨_, rfl, rfl⟩
    · rw [if_neg hw, if_neg hw]
      by_cases hl : (st.sel.length : Int) < cfg.itMin
      · rw [if_pos hl, if_pos hl]; exact .inl ⟨_, rfl, rfl⟩
      · rw [if_neg hl, if_neg hl]
        rcases h.tests hst hgo with ⟨e1, e2⟩ | ⟨s1, s1', e1, e2, hq, hs, herr, hit, hmo⟩
        · rw [e1, e2]; exact .inl ⟨_, rfl, rfl⟩
        · rw [e1, e2]
          refine .inr ⟨s1, s1', rfl, rfl, hq, hs, herr, hit, hmo, ?_⟩
          obtain ⟨e, he, he', hreach⟩ := hst.at_
          obtain ⟨n, hn⟩ := hreach hgo
          obtain ⟨f, hf, hax, -, hset, hmor⟩ := iterate_at hsol hm he e1
          obtain ⟨f', hf', -, -, -, hmor'⟩ := iterate_at (h.solver ▸ hsol) hm' he' e2
          have hff : f' = f := by
            rw [hmo, hmor] at hmor'
            simp only [Morph.mk.injEq] at hmor'
            obtain ⟨-, a1, a2, a3, a4, a5⟩ := hmor'
            cases f
            cases f'
            simp only at a1 a2 a3 a4 a5
            subst a1 a2 a3 a4 a5
            rfl
          subst hff
          refine ⟨f', hf, hf', fun hgo' => ⟨n + 1, .step hn ?_ hax ?_⟩⟩
          · rw [he.length] at hl
            omega
          · exact fun x => absurd (hset.2 x) (not_le.2 hgo')
  · rw [if_neg hgo, if_neg hgo, hst.morph]; exact .inl ⟨_, rfl, rfl⟩

theorem SameDirections.loop (hsol : GoodSolver cfg.solver) (hm : ∀ p ∈ cfg.pts, 0 ≤ p.m) (hm' : ∀ p ∈ cfg'.pts, 0 ≤ p.m)
    (fuel : Nat) (st st' : PState) (hst : StRay cfg cfg' st st') :
    loop (pureStep cfg') fuel st' = loop (pureStep cfg) fuel st := by
  induction fuel generalizing st st' with
  | zero => rfl
  | succ fuel ih =>
    unfold Shapes.loop
    rcases h.step hsol hm hm' st st' hst with ⟨r, e1, e2⟩ | ⟨s1, s1', e1, e2, hr⟩
    · rw [e1, e2]
    · rw [e1, e2]; exact ih s1 s1' hr

end

/-- C167. With the reduced tensor the outcome (shape, NaN or exception) does not depend on how far away from the centre particles are, as long as
they are inside of the same ellipsoids of the iteration: particles may be moved along the line of sight from the centre, each
by its own factor. -/
theorem C167_directions (cfg cfg' : Config) (h : SameDirections cfg cfg') (hsol : GoodSolver cfg.solver) (hm : ∀ p ∈ cfg.pts, 0 ≤ p.m)
    (fuel : Nat) (morph : Morph) (sc sc' : Scratch) (hf : Fits cfg sc) (hf' : Fits cfg' sc') :
    (runAlgo fuel cfg' morph sc').map (Option.map Prod.fst) = (runAlgo fuel cfg morph sc).map (Option.map Prod.fst) := by
  have hm' : ∀ p ∈ cfg'.pts, 0 ≤ p.m := by
    have hpts := h.pts
    intro p' hp'
    obtain ⟨i, hi, rfl⟩ := List.getElem_of_mem hp'
    have hi' : i < cfg.pts.length := by rw [hpts.length_eq]; exact hi
    have := (List.forall₂_iff_get.1 hpts).2 i hi' hi
    rw [show cfg'.pts[i].m = cfg.pts[i].m from this.1]
    exact hm _ (List.getElem_mem hi')
  rw [(runAlgo_pure fuel cfg' morph sc' hf'.1 hf'.2).1, (runAlgo_pure fuel cfg morph sc hf.1 hf.2).1]
  exact h.loop hsol hm hm' fuel _ _ ⟨rfl, rfl, rfl, rfl, rfl, sphere, start_at cfg morph, start_at cfg' morph, fun _ => ⟨0, .sphere⟩⟩

/-! ## Example: a cross with arms of lengths `u`, `v`, `w` -/

/-- Its reduced shape is asked for inside a radius of 100. -/
noncomputable def armsCfg (sol : Solver) (u v w : ℝ) : Config :=
  ⟨[⟨![u, 0, 0], ![u, 0, 0], 1⟩, ⟨![-u, 0, 0], ![-u, 0, 0], 1⟩, ⟨![0, v, 0], ![0, v, 0], 1⟩, ⟨![0, -v, 0], ![0, -v, 0], 1⟩,
    ⟨![0, 0, w], ![0, 0, w], 1⟩, ⟨![0, 0, -w], ![0, 0, -w], 1⟩], ![0, 0, 0], ![0, 0, 0], 100, none, 1 / 10, 100, 6, true, sol⟩

open Classical in
theorem arms_inside (sol : Solver) {u v w : ℝ} (hu : u ^ 2 < 100 ^ 2) (hv : v ^ 2 < 100 ^ 2) (hw : w ^ 2 < 100 ^ 2) :
    ∀ p ∈ (armsCfg sol u v w).pts, Inside (armsCfg sol u v w) sphere.major sphere.inter sphere.minor sphere.q sphere.s p := by
  intro p hp
  refine ⟨?_, fun δ hδ => by cases hδ⟩
  have e0 : ellipsoidal2 sphere.major sphere.inter sphere.minor sphere.q sphere.s (rel (armsCfg sol u v w) p) =
    dot (rel (armsCfg sol u v w) p) (rel (armsCfg sol u v w) p) := by simp [ellipsoidal2, sphere, dot]; ring
  rw [e0]
  show _ < (100 : ℝ) ^ 2
  simp only [armsCfg, List.mem_cons, List.not_mem_nil, or_false] at hp
  rcases hp with rfl | rfl | rfl | rfl | rfl | rfl <;> simp [dot, rel, armsCfg] <;> nlinarith

open Classical in
theorem arms_tensor (sol : Solver) {u v w : ℝ} (hu : u ^ 2 < 100 ^ 2) (hv : v ^ 2 < 100 ^ 2) (hw : w ^ 2 < 100 ^ 2) (hu0 : 0 < u) (hv0 : 0 < v)
    (hw0 : 0 < w) (i j : Fin 3) : tensorOf (armsCfg sol u v w) sphere i j = if i = j then 1 / 3 else 0 := by
  have hmem : members (armsCfg sol u v w) sphere = (armsCfg sol u v w).pts := by
    unfold members
    rw [List.filter_eq_self]
    intro p hp
    exact decide_eq_true (arms_inside sol hu hv hw p hp)
  have e0 : ∀ y, ellipsoidal2 sphere.major sphere.inter sphere.minor sphere.q sphere.s y = dot y y := by
    intro y; simp [ellipsoidal2, sphere, dot]; ring
  unfold tensorOf massTensor
  rw [hmem]
  simp only [e0]
  have hr : (armsCfg sol u v w).reduced = true := rfl
  rw [hr]
  simp only [if_true, armsCfg, rel, dot, List.map_cons, List.map_nil, List.sum_cons, List.sum_nil, vec3_0, vec3_1, vec3_2]
  have := hu0.ne'
  have := hv0.ne'
  have := hw0.ne'
  fin_cases i <;> fin_cases j <;> simp <;> field_simp <;> norm_num

theorem arms_reached (sol : Solver) {u v w : ℝ} (hu : u ^ 2 < 100 ^ 2) (hv : v ^ 2 < 100 ^ 2) (hw : w ^ 2 < 100 ^ 2) (hu0 : 0 < u) (hv0 : 0 < v)
    (hw0 : 0 < w) (n : Nat) (e : Ellipsoid) (h : Reached (armsCfg sol u v w) n e) : e = sphere := by
  induction h with
  | sphere => rfl
  | @step n e e' h enough axes unsettled ih =>
    subst ih
    exfalso
    have hs : √(1 / 3 : ℝ) ^ 2 = 1 / 3 := Real.sq_sqrt (by norm_num)
    have hP : Principal (tensorOf (armsCfg sol u v w) sphere) (√(1 / 3)) (√(1 / 3)) (√(1 / 3)) ![1, 0, 0] ![0, 1, 0] ![0, 0, 1] := by
      refine ⟨Real.sqrt_pos.2 (by norm_num), le_refl _, le_refl _, unit_axes, ?_, ?_, ?_⟩ <;>
      · intro i
        rw [hs, arms_tensor sol hu hv hw hu0 hv0 hw0, arms_tensor sol hu hv hw hu0 hv0 hw0, arms_tensor sol hu hv hw hu0 hv0 hw0]
        fin_cases i <;> simp
    obtain ⟨a, b, c, p, hq, hs'⟩ := axes.principal
    obtain ⟨rfl, rfl, rfl⟩ := hP.unique (tensorOf_symm _) p
    rw [div_self hP.pos.ne'] at hq hs'
    refine unsettled ⟨?_, ?_⟩
    · rw [hq]; norm_num [sphere, armsCfg]
    · rw [hs']; norm_num [sphere, armsCfg]

/-- Arms of lengths 3, 2, 1 give the same result as arms of equal lengths. -/
example (sol : Solver) : SameDirections (armsCfg sol 3 2 1) (armsCfg sol 1 1 1) := by
  have hray : ∀ p ∈ (armsCfg sol 3 2 1).pts, ∀ p' ∈ (armsCfg sol 1 1 1).pts, ∀ n e, Reached (armsCfg sol 3 2 1) n e →
      (Inside (armsCfg sol 1 1 1) e.major e.inter e.minor e.q e.s p' ↔ Inside (armsCfg sol 3 2 1) e.major e.inter e.minor e.q e.s p) := by
    intro p hp p' hp' n e hr
    rw [arms_reached sol (by norm_num) (by norm_num) (by norm_num) (by norm_num) (by norm_num) (by norm_num) n e hr]
    exact iff_of_true (arms_inside sol (by norm_num) (by norm_num) (by norm_num) p' hp')
      (arms_inside sol (by norm_num) (by norm_num) (by norm_num) p hp)
  have hsrc : ∀ u v w, (∀ p ∈ (armsCfg sol u v w).pts, p.src = p.x) ∧ (armsCfg sol u v w).srcCenter = (armsCfg sol u v w).center := by
    intro u v w
    refine ⟨?_, rfl⟩
    intro p hp
    simp only [armsCfg, List.mem_cons, List.not_mem_nil, or_false] at hp
    rcases hp with rfl | rfl | rfl | rfl | rfl | rfl <;> rfl
  refine ⟨?_, hsrc _ _ _, hsrc _ _ _, ⟨rfl, rfl⟩, ⟨rfl, rfl⟩, rfl, rfl, rfl, rfl, rfl⟩
  refine .cons ⟨rfl, ⟨1 / 3, by norm_num, ?_⟩, hray _ ?_ _ ?_⟩ (.cons ⟨rfl, ⟨1 / 3, by norm_num, ?_⟩, hray _ ?_ _ ?_⟩
    (.cons ⟨rfl, ⟨1 / 2, by norm_num, ?_⟩, hray _ ?_ _ ?_⟩ (.cons ⟨rfl, ⟨1 / 2, by norm_num, ?_⟩, hray _ ?_ _ ?_⟩
    (.cons ⟨rfl, ⟨1, by norm_num, ?_⟩, hray _ ?_ _ ?_⟩ (.cons ⟨rfl, ⟨1, by norm_num, ?_⟩, hray _ ?_ _ ?_⟩ .nil)))))
  all_goals first
    | (intro i; fin_cases i <;> simp [armsCfg])
    | simp [armsCfg]

end Verif.Shapes
