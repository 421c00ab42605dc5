import Verif.Shapes.Similar
import Verif.Shapes.Examples
import Verif.Round.Lemmas
import Verif.Round.Binary

/-!
# Total masses added up in single precision: shapes (C156)

`calcShapeTensor` adds up the masses of the selected particles in a variable of single precision (`cdef float mass_tot`,
helper_class.pyx:41-44) and divides the tensor by the result.  The other models of the iteration use the exact sum.
-/

namespace Verif.Round

open Verif.Shapes
open Verif (Vec)

/-! ## Model -/

/-- `mass_tot = mass_tot+masses[select[run]]` in single precision `S`, helper_class.pyx:41-44: the sum is rounded to double
precision `R` and then to single precision. -/
noncomputable def totalSingle (R S : Rounding) (ms : List ℝ) : ℝ := ms.foldl (fun a m => S.rnd (R.add a m)) 0

/-- `calcShapeTensor`, helper_class.pyx:19-57, on the selected particles, when `mass_tot` has the value `mt`. -/
noncomputable def tensorWith (cfg : Config) (mt : ℝ) (sel : Sel) : Option Tensor := do
  let e00 ← pureEntry cfg mt sel 0 0
  let e10 ← pureEntry cfg mt sel 1 0
  let e11 ← pureEntry cfg mt sel 1 1
  let e20 ← pureEntry cfg mt sel 2 0
  let e21 ← pureEntry cfg mt sel 2 1
  let e22 ← pureEntry cfg mt sel 2 2
  some ![![e00, e10, e20], ![e10, e11, e21], ![e20, e21, e22]]

/-- One iteration, shape_profs_algos.pyx:88-145 and its three variants (213-262, 334-383, 457-508), with the total mass
`tot` of the selected particles. -/
noncomputable def iterateWith (tot : Sel → ℝ) (cfg : Config) (st : PState) : Option PState := do
  let t ← tensorWith cfg (tot st.sel) st.sel
  let (qn, sn, err, major, inter, minor) ← diagonalise cfg t st.q st.s
  let princ := cfg.pts.map (toPrinc cfg major inter minor)
  let rs ← princ.mapM fun y => (ellRadius2 qn sn y).map Real.sqrt
  let tests ← princ.mapM (laterTest cfg qn sn)
  some { q := qn, s := sn, err := err, iteration := st.iteration + 1
         sel := select cfg.pts rs tests
         morph := ⟨cfg.d, qn, sn, major, inter, minor⟩ }

/-- The tests before an iteration, as in `pureStep`. -/
noncomputable def stepWith (tot : Sel → ℝ) (cfg : Config) (st : PState) : Next (Option Morph) PState :=
  if st.err > cfg.tol then
    if (st.iteration : Int) > cfg.wall then .stop (some .zero)
    else if (st.sel.length : Int) < cfg.itMin then .stop (some .zero)
    else match iterateWith tot cfg st with
      | none => .stop none
      | some st' => .go st'
  else .stop (some st.morph)

/-- The algorithm (`runAlgo` without its scratch memory) with the total mass `tot` of the selected particles. -/
noncomputable def runWith (tot : Sel → ℝ) (fuel : Nat) (cfg : Config) (morph : Morph) : Option (Option Morph) :=
  loop (stepWith tot cfg) fuel (pureStart cfg morph)

/-- With the exact sum this is the algorithm of the other models. -/
theorem runWith_sum (fuel : Nat) (cfg : Config) (morph : Morph) (sc : Scratch) (hf : Fits cfg sc) :
    runWith (fun sel => (sel.map fun pr => pr.1.m).sum) fuel cfg morph = result (runAlgo fuel cfg morph sc) := by
  unfold result
  rw [(runAlgo_pure fuel cfg morph sc hf.1 hf.2).1]
  rfl

/-! ## Proof -/

theorem totalSingle_pos (R S : Rounding) (ms : List ℝ) (hne : ms ≠ []) (hm : ∀ m ∈ ms, 0 < m) : 0 < totalSingle R S ms := by
  have gen : ∀ (ms : List ℝ) (a : ℝ), (0 ≤ a ∧ ms ≠ [] ∨ 0 < a) → (∀ m ∈ ms, 0 < m) →
      0 < ms.foldl (fun a m => S.rnd (R.add a m)) a := by
    intro ms
    induction ms with
    | nil =>
      intro a h _
      rcases h with h | h
      · exact absurd rfl h.2
      · exact h
    | cons m ms ih =>
      intro a h hm
      rw [List.foldl_cons]
      refine ih _ (Or.inr ?_) fun x hx => hm x (List.mem_cons_of_mem _ hx)
      have h0 : 0 ≤ a := by
        rcases h with h | h
        · exact h.1
        · exact h.le
      exact rnd_pos S (rnd_pos R (add_pos_of_nonneg_of_pos h0 (hm m (List.mem_cons_self ..))))
  exact gen ms 0 (Or.inl ⟨le_rfl, hne⟩) hm

theorem entry_with (cfg : Config) {mt mt' : ℝ} (h : 0 < mt) (h' : 0 < mt') (sel : Sel) (i j : Fin 3) :
    pureEntry cfg mt sel i j = (pureEntry cfg mt' sel i j).map (· * (mt' / mt)) := by
  have hs : ∀ pr : Pt × ℝ, tensorTerm cfg mt pr.1 pr.2 i j = (tensorTerm cfg mt' pr.1 pr.2 i j).map (· * (mt' / mt)) := by
    intro pr
    unfold tensorTerm cdiv
    cases cfg.reduced
    · simp only [Bool.false_eq_true, if_false]
      rw [if_neg h.ne', if_neg h'.ne', Option.map_some]
      congr 1
      field_simp
    · simp only [if_true]
      by_cases hr : pr.2 ^ 2 = 0
      · rw [if_pos (by rw [hr, mul_zero]), if_pos (by rw [hr, mul_zero])]
        rfl
      · rw [if_neg (mul_ne_zero h.ne' hr), if_neg (mul_ne_zero h'.ne' hr), Option.map_some]
        congr 1
        field_simp
  have gen : ∀ (sel : Sel) (a : ℝ),
      sel.foldlM (fun acc pr => (tensorTerm cfg mt pr.1 pr.2 i j).map (acc + ·)) (a * (mt' / mt)) =
      (sel.foldlM (fun acc pr => (tensorTerm cfg mt' pr.1 pr.2 i j).map (acc + ·)) a).map (· * (mt' / mt)) := by
    intro sel
    induction sel with
    | nil => intro a; rfl
    | cons pr sel ih =>
      intro a
      rw [List.foldlM_cons, List.foldlM_cons, hs pr]
      cases tensorTerm cfg mt' pr.1 pr.2 i j with
      | none => rfl
      | some w =>
        simp only [Option.map_some, Option.bind_eq_bind, Option.bind_some]
        rw [← add_mul]
        exact ih _
  have := gen sel 0
  rw [zero_mul] at this
  exact this

theorem tensor_with (cfg : Config) {mt mt' : ℝ} (h : 0 < mt) (h' : 0 < mt') (sel : Sel) :
    tensorWith cfg mt sel = (tensorWith cfg mt' sel).map fun t i j => t i j * (mt' / mt) := by
  unfold tensorWith
  simp only [entry_with cfg h h']
  rcases pureEntry cfg mt' sel 0 0 with _ | e00
  · rfl
  rcases pureEntry cfg mt' sel 1 0 with _ | e10
  · rfl
  rcases pureEntry cfg mt' sel 1 1 with _ | e11
  · rfl
  rcases pureEntry cfg mt' sel 2 0 with _ | e20
  · rfl
  rcases pureEntry cfg mt' sel 2 1 with _ | e21
  · rfl
  rcases pureEntry cfg mt' sel 2 2 with _ | e22
  · rfl
  simp only [Option.map_some, Option.bind_eq_bind, Option.bind_some]
  congr 1
  funext i j
  fin_cases i <;> fin_cases j <;> rfl

theorem turn_one (sol : Solver) (cfg : Config) : turn 1 sol cfg = { cfg with solver := sol } := by
  unfold turn
  have : turnPt 1 = id := by
    funext p; unfold turnPt; simp
  rw [this]; simp

/-- Another total mass has the effect of another eigenvalue routine. -/
theorem iterate_with (tot : Sel → ℝ) (cfg : Config) (st : PState)
    (htot : st.sel ≠ [] → 0 < tot st.sel) (hm : ∀ pr ∈ st.sel, 0 < pr.1.m) (hsol : GoodSolver cfg.solver) :
    ∃ sol, GoodSolver sol ∧ iterateWith tot cfg st = pureIterate (turn 1 sol cfg) st := by
  have key : ∃ k : ℝ, 0 < k ∧ tensorWith cfg (tot st.sel) st.sel = (pureTensor cfg st.sel).map fun t i j => t i j * k := by
    by_cases hne : st.sel = []
    · refine ⟨1, one_pos, ?_⟩
      rw [hne]
      show some _ = Option.map _ (some _)
      rw [Option.map_some]
      congr 1
      funext i j
      rw [mul_one]
    · have hsum : 0 < (st.sel.map fun pr => pr.1.m).sum := by
        apply List.sum_pos
        · intro x hx
          obtain ⟨p, hp, rfl⟩ := List.mem_map.1 hx
          exact hm p hp
        · simpa using hne
      exact ⟨_, div_pos hsum (htot hne), tensor_with cfg (htot hne) hsum st.sel⟩
  obtain ⟨k, hk, hT⟩ := key
  refine ⟨zoomSolver k⁻¹ cfg.solver, goodSolver_zoom (inv_pos.2 hk) hsol, ?_⟩
  rw [turn_one]
  unfold iterateWith pureIterate
  rw [hT]
  have hp : pureTensor { cfg with solver := zoomSolver k⁻¹ cfg.solver } st.sel = pureTensor cfg st.sel := rfl
  rw [hp]
  cases pureTensor cfg st.sel with
  | none => rfl
  | some t =>
    simp only [Option.map_some, Option.bind_eq_bind, Option.bind_some]
    have hd : diagonalise { cfg with solver := zoomSolver k⁻¹ cfg.solver } t st.q st.s =
        diagonalise cfg (fun i j => t i j * k) st.q st.s := by
      have := diagonalise_zoom (f := 1) (v := 1) (g := 1) (cfg := cfg) (inv_pos.2 hk) (fun i j => t i j * k) st.q st.s
      rw [← this]
      have e : (fun i j => (fun i j => t i j * k) i j * k⁻¹) = t := by
        funext i j
        exact mul_inv_cancel_right₀ hk.ne' _
      rw [e]
      rfl
    rw [hd]
    rfl

theorem select_mem {pts : List Pt} {rs : List ℝ} {tests : List Bool} {pr : Pt × ℝ} (h : pr ∈ select pts rs tests) : pr.1 ∈ pts := by
  unfold select at h
  obtain ⟨x, hx, hxp⟩ := List.mem_filterMap.1 h
  split at hxp
  · obtain rfl := Option.some.inj hxp
    exact (List.of_mem_zip (List.of_mem_zip hx).1).1
  · cases hxp

theorem pureIterate_sel {cfg : Config} {st st' : PState} (h : pureIterate cfg st = some st') :
    ∃ rs tests, st'.sel = select cfg.pts rs tests := by
  unfold pureIterate at h
  simp only [Option.bind_eq_bind, Option.bind_eq_some_iff] at h
  obtain ⟨t, -, d, -, rs, -, tests, -, h⟩ := h
  exact ⟨rs, tests, by rw [← Option.some.inj h]⟩

theorem turnSel_one (sel : Sel) : turnSel 1 sel = sel := by
  unfold turnSel
  have : (fun pr : Pt × ℝ => (turnPt 1 pr.1, pr.2)) = id := by
    funext pr
    simp [turnPt]
  rw [this, List.map_id]

theorem loop_with (tot : Sel → ℝ) (cfg : Config) (hm : ∀ p ∈ cfg.pts, 0 < p.m) (hsol : GoodSolver cfg.solver)
    (htot : ∀ sel : Sel, sel ≠ [] → (∀ pr ∈ sel, pr.1 ∈ cfg.pts) → 0 < tot sel)
    (fuel : Nat) (st st' : PState) (h : TurnRel 1 cfg.tol st st') (hsel : ∀ pr ∈ st.sel, pr.1 ∈ cfg.pts) :
    Agree 1 (loop (pureStep cfg) fuel st) (loop (stepWith tot cfg) fuel st') := by
  induction fuel generalizing st st' with
  | zero => exact .running
  | succ fuel ih =>
    have e : st'.sel = st.sel := by rw [h.sel, turnSel_one]
    obtain ⟨sol, hs, hi⟩ := iterate_with tot cfg st' (fun hne => htot _ hne (by rw [e]; exact hsel))
      (by rw [e]; exact fun pr hpr => hm _ (hsel pr hpr)) hsol
    have hstep : stepWith tot cfg st' = pureStep (turn 1 sol cfg) st' := by
      unfold stepWith pureStep
      rw [hi]
      rfl
    unfold loop
    rw [hstep]
    rcases step_turn sol cfg (by simp) hsol hs st st' h with ⟨r, r', e1, e2, ha⟩ | ⟨s1, s1', e1, e2, hr⟩
    · rw [e1, e2]; exact ha
    · rw [e1, e2]
      refine ih s1 s1' hr ?_
      unfold pureStep at e1
      split at e1
      · split at e1
        · cases e1
        · split at e1
          · cases e1
          · split at e1
            · cases e1
            · rename_i st1 hst
              obtain ⟨rs, tests, hq⟩ := pureIterate_sel hst
              cases e1
              rw [hq]
              exact fun pr hpr => select_mem hpr
      · cases e1

/-- C156. The accuracy of the total mass does not matter for shapes: if the sum of the masses of the selected particles is replaced by any positive
number, another one for each selection, the algorithm gives the same outcome after the same number of iterations: the same size, axis ratios
and ellipsoid, in all four variants. -/
theorem C156_total_mass (tot : Sel → ℝ) (fuel : Nat) (cfg : Config) (hsol : GoodSolver cfg.solver) (htol : cfg.tol < 1)
    (hm : ∀ p ∈ cfg.pts, 0 < p.m) (htot : ∀ sel : Sel, sel ≠ [] → (∀ pr ∈ sel, pr.1 ∈ cfg.pts) → 0 < tot sel)
    (morph morph' : Morph) (sc : Scratch) (hf : Fits cfg sc) :
    Agree 1 (result (runAlgo fuel cfg morph sc)) (runWith tot fuel cfg morph') := by
  unfold result
  rw [(runAlgo_pure fuel cfg morph sc hf.1 hf.2).1]
  refine loop_with tot cfg hm hsol htot fuel _ _ ?_ fun pr hpr => select_mem hpr
  exact ⟨rfl, rfl, rfl, rfl, by rw [turnSel_one]; rfl, Or.inl htol⟩

/-- C156. The code adds up the total mass in single precision.  Shapes do not notice, however many particles there are: size, axis ratios and ellipsoid
are those obtained with the exact total mass. -/
theorem C156_single (R S : Rounding) (fuel : Nat) (cfg : Config) (hsol : GoodSolver cfg.solver) (htol : cfg.tol < 1)
    (hm : ∀ p ∈ cfg.pts, 0 < p.m) (morph morph' : Morph) (sc : Scratch) (hf : Fits cfg sc) :
    Agree 1 (result (runAlgo fuel cfg morph sc))
      (runWith (fun sel => totalSingle R S (sel.map fun pr => pr.1.m)) fuel cfg morph') := by
  refine C156_total_mass _ fuel cfg hsol htol hm (fun sel hne hsel => ?_) morph morph' sc hf
  refine totalSingle_pos R S _ (by simpa using hne) ?_
  intro m hmem
  obtain ⟨pr, hpr, rfl⟩ := List.mem_map.1 hmem
  exact hm _ (hsel pr hpr)

/-- A concrete case: the cross with its total mass in single precision has the ratios 2/3 and 1/3. -/
theorem C156_cross (sol : Solver) (hsol : GoodSolver sol) :
    ∃ m, runWith (fun sel => totalSingle float64 float32 (sel.map fun pr => pr.1.m)) 3 (crossCfg sol) .zero = some (some m) ∧
      m.q = 2 / 3 ∧ m.s = 1 / 3 := by
  have hf : Fits (crossCfg sol) ⟨[], List.replicate 6 0, List.replicate 6 0, 0⟩ :=
    ⟨by simp [crossCfg, crossPts], by simp [crossCfg, crossPts]⟩
  have h := C156_single float64 float32 3 (crossCfg sol) hsol (by norm_num [crossCfg]) (by simp [crossCfg, crossPts]) .zero .zero _ hf
  obtain ⟨x, y, z, hx, hy, hz, hrun⟩ := cross_run sol hsol .zero
  have h1 := (runAlgo_pure 3 (crossCfg sol) .zero ⟨[], List.replicate 6 0, List.replicate 6 0, 0⟩ hf.1 hf.2).1
  unfold result at h
  rw [h1, hrun 3 le_rfl] at h
  generalize runWith (fun sel => totalSingle float64 float32 (sel.map fun pr => pr.1.m)) 3 (crossCfg sol) .zero = r at h ⊢
  cases h with
  | shape m m' h => exact ⟨m', rfl, h.q, h.s⟩

end Verif.Round
