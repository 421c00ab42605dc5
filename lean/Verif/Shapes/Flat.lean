import Verif.Shapes.Examples
import Mathlib.LinearAlgebra.Matrix.NonsingularInverse

/-!
# Flat objects

What happens when the particles lie in a plane through the center.
-/

namespace Verif.Shapes

theorem dot_comm (u v : Vec ℝ) : dot u v = dot v u := by unfold dot; ring

/-- A vector orthogonal to three orthonormal vectors vanishes. -/
theorem Orthonormal.complete {u v w n : Vec ℝ} (h : Orthonormal u v w) (h1 : dot u n = 0)
    (h2 : dot v n = 0) (h3 : dot w n = 0) : n = 0 := by
  obtain ⟨a, b, c, d, e, f⟩ := h
  unfold dot at a b c d e f h1 h2 h3
  let M : Matrix (Fin 3) (Fin 3) ℝ := ![u, v, w]
  have hM : M * M.transpose = 1 := by
    ext i j
    rw [Matrix.mul_apply, Fin.sum_univ_three]
    show M i 0 * M j 0 + M i 1 * M j 1 + M i 2 * M j 2 = _
    fin_cases i <;> fin_cases j <;> simp [M] <;> linarith
  have hM' := mul_eq_one_comm.1 hM
  have hz : M.mulVec n = 0 := by
    funext i
    rw [Matrix.mulVec, dotProduct, Fin.sum_univ_three]
    fin_cases i <;> simp [M] <;> linarith
  calc n = (1 : Matrix (Fin 3) (Fin 3) ℝ).mulVec n := (Matrix.one_mulVec n).symm
    _ = (M.transpose * M).mulVec n := by rw [hM']
    _ = M.transpose.mulVec (M.mulVec n) := by rw [Matrix.mulVec_mulVec]
    _ = 0 := by rw [hz, Matrix.mulVec_zero]

/-- All tensor vectors are orthogonal to `n`. -/
def FlatAlong (cfg : Config) (ps : List Pt) (n : Vec ℝ) : Prop :=
  ∀ p ∈ ps, dot n (fun i => p.src i - cfg.srcCenter i) = 0

theorem selTensor_flat {cfg : Config} {sel : Sel} {n : Vec ℝ}
    (h : FlatAlong cfg (sel.map Prod.fst) n) (i : Fin 3) :
    n 0 * selTensor cfg sel 0 i + n 1 * selTensor cfg sel 1 i + n 2 * selTensor cfg sel 2 i = 0 := by
  unfold selTensor
  generalize (sel.map fun pr => pr.1.m).sum = M
  have key : n 0 * (sel.map fun pr => pr.1.m * (pr.1.src 0 - cfg.srcCenter 0) *
        (pr.1.src i - cfg.srcCenter i) / weight cfg pr.2).sum +
      n 1 * (sel.map fun pr => pr.1.m * (pr.1.src 1 - cfg.srcCenter 1) *
        (pr.1.src i - cfg.srcCenter i) / weight cfg pr.2).sum +
      n 2 * (sel.map fun pr => pr.1.m * (pr.1.src 2 - cfg.srcCenter 2) *
        (pr.1.src i - cfg.srcCenter i) / weight cfg pr.2).sum = 0 := by
    induction sel with
    | nil => simp
    | cons pr sel ih =>
      have hp := h pr.1 (by simp)
      have ih := ih (fun p hp => h p (by simp at hp ⊢; exact Or.inr hp))
      simp only [List.map_cons, List.sum_cons]
      unfold dot at hp
      linear_combination ih + pr.1.m * (pr.1.src i - cfg.srcCenter i) / weight cfg pr.2 * hp
  linear_combination key / M

/-- An iteration on a flat selection never succeeds. -/
theorem flat_iterate {cfg : Config} {st : PState} {major inter minor n : Vec ℝ}
    (hsol : GoodSolver cfg.solver) (hm : ∀ p ∈ cfg.pts, 0 ≤ p.m)
    (hd : Described cfg st major inter minor) (hn : n ≠ 0)
    (hflat : FlatAlong cfg (st.sel.map Prod.fst) n) : pureIterate cfg st = none := by
  cases hi : pureIterate cfg st with
  | none => rfl
  | some st' =>
    exfalso
    obtain ⟨hd', -, -, -, -, ⟨a, b, c, hc, hcb, hba, -, -, e1, e2, e3⟩, -⟩ :=
      iterate_described hsol hm hd hi
    apply hn
    have key : ∀ (l : ℝ) (v : Vec ℝ), 0 < l → IsEigenvector (selTensor cfg st.sel) (l ^ 2) v →
        dot v n = 0 := by
      intro l v hl he
      have h0 := he 0
      have h1 := he 1
      have h2 := he 2
      have f0 := selTensor_flat hflat 0
      have f1 := selTensor_flat hflat 1
      have f2 := selTensor_flat hflat 2
      have : l ^ 2 * dot v n = 0 := by
        unfold dot
        linear_combination -(n 0 * h0) - n 1 * h1 - n 2 * h2 + v 0 * f0 + v 1 * f1 + v 2 * f2
      exact (mul_eq_zero.1 this).resolve_left (by positivity)
    exact hd'.frame.complete (key a _ (by linarith) e1) (key b _ (by linarith) e2) (key c _ hc e3)

theorem sum_zero_of_nonneg {α : Type} (l : List α) (f : α → ℝ) (h : ∀ a ∈ l, 0 ≤ f a)
    (hs : (l.map f).sum = 0) : ∀ a ∈ l, f a = 0 := by
  induction l with
  | nil => simp
  | cons x l ih =>
    have h0 := h x (by simp)
    have h1 : 0 ≤ (l.map f).sum := sum_map_nonneg' l f fun a ha => h a (by simp [ha])
    simp only [List.map_cons, List.sum_cons] at hs
    intro a ha
    rcases List.mem_cons.1 ha with rfl | ha
    · linarith
    · exact ih (fun a ha => h a (by simp [ha])) (by linarith) a ha

theorem mapM_none {α β : Type} (f : α → Option β) (l : List α) (h : l.mapM f = none) :
    ∃ a ∈ l, f a = none := by
  induction l with
  | nil => simp at h
  | cons a l ih =>
    cases ha : f a with
    | none => exact ⟨a, by simp, ha⟩
    | some b =>
      rw [List.mapM_cons, ha] at h
      simp only [Option.bind_eq_bind, Option.bind_some] at h
      cases hl : l.mapM f with
      | none => obtain ⟨x, hx, hf⟩ := ih hl; exact ⟨x, by simp [hx], hf⟩
      | some c => rw [hl] at h; simp at h

/-- Unreduced tensors of particles with positive mass can be computed. -/
theorem pureTensor_isSome {cfg : Config} {sel : Sel} (hr : cfg.reduced = false)
    (hm : ∀ pr ∈ sel, 0 < pr.1.m) : ∃ t, pureTensor cfg sel = some t := by
  have hpos : sel ≠ [] → (sel.map fun pr => pr.1.m).sum ≠ 0 := by
    intro hne h0
    obtain ⟨pr, hpr⟩ := List.exists_mem_of_ne_nil _ hne
    have := sum_zero_of_nonneg sel _ (fun a ha => (hm a ha).le) h0 pr hpr
    exact (hm pr hpr).ne' this
  have gen : ∀ (mt : ℝ) (i j : Fin 3) (l : Sel) (acc : ℝ), (l ≠ [] → mt ≠ 0) →
      ∃ v, l.foldlM (fun acc pr => (tensorTerm cfg mt pr.1 pr.2 i j).map (acc + ·)) acc = some v := by
    intro mt i j l
    induction l with
    | nil => intro acc _; exact ⟨acc, rfl⟩
    | cons pr l ih =>
      intro acc hne
      have hmt := hne (by simp)
      rw [List.foldlM_cons]
      unfold tensorTerm
      rw [hr]
      simp only [Bool.false_eq_true, if_false]
      rw [cdiv_of_ne hmt]
      have := ih (acc + (pr.1.m * (pr.1.src i - cfg.srcCenter i) *
          (pr.1.src j - cfg.srcCenter j)) / mt) (fun _ => hmt)
      unfold tensorTerm at this
      rw [hr] at this
      simpa using this
  have entry : ∀ i j, ∃ v, pureEntry cfg (sel.map fun pr => pr.1.m).sum sel i j = some v :=
    fun i j => gen _ i j sel 0 hpos
  obtain ⟨_, e0⟩ := entry 0 0
  obtain ⟨_, e1⟩ := entry 1 0
  obtain ⟨_, e2⟩ := entry 1 1
  obtain ⟨_, e3⟩ := entry 2 0
  obtain ⟨_, e4⟩ := entry 2 1
  obtain ⟨_, e5⟩ := entry 2 2
  unfold pureTensor
  simp only [e0, e1, e2, e3, e4, e5]
  exact ⟨_, rfl⟩

theorem mapM_isSome {α β : Type} (f : α → Option β) (l : List α) (h : ∀ a ∈ l, f a ≠ none) :
    ∃ r, l.mapM f = some r := by
  cases hl : l.mapM f with
  | none => obtain ⟨a, ha, hf⟩ := mapM_none f l hl; exact absurd hf (h a ha)
  | some r => exact ⟨r, rfl⟩

/-- With the unreduced tensor, volumes bounded by one ellipsoid, and positive masses: an iteration
raises only if the selected particles lie in a plane. -/
theorem iterate_none_flat {cfg : Config} {st : PState} (hsol : GoodSolver cfg.solver)
    (hr : cfg.reduced = false) (hδ : cfg.deltaD = none) (hm : ∀ pr ∈ st.sel, 0 < pr.1.m)
    (hq : 0 < st.q) (hs : 0 < st.s) (h : pureIterate cfg st = none) :
    ∃ n : Vec ℝ, n ≠ 0 ∧ FlatAlong cfg (st.sel.map Prod.fst) n := by
  obtain ⟨t, ht⟩ := pureTensor_isSome hr hm
  have hts := pureTensor_some ht
  have hE := hsol t (by rw [hts]; exact selTensor_symm cfg _)
  by_cases hv : ∃ k, (cfg.solver t).val k = 0
  · obtain ⟨k, hk⟩ := hv
    refine ⟨(cfg.solver t).vec k, hE.nonzero k, ?_⟩
    have hz : ∀ i, t i 0 * (cfg.solver t).vec k 0 + t i 1 * (cfg.solver t).vec k 1 +
        t i 2 * (cfg.solver t).vec k 2 = 0 := by
      intro i; rw [hE.eigen k i, hk, zero_mul]
    have hform := selTensor_form cfg st.sel ((cfg.solver t).vec k)
    rw [← hts, hz 0, hz 1, hz 2] at hform
    simp only [mul_zero, add_zero] at hform
    intro p hp
    obtain ⟨pr, hpr, rfl⟩ := List.mem_map.1 hp
    have hM : (st.sel.map fun pr => pr.1.m).sum ≠ 0 := by
      intro h0
      exact (hm pr hpr).ne' (sum_zero_of_nonneg _ _ (fun a ha => (hm a ha).le) h0 pr hpr)
    have hsum := (div_eq_zero_iff.1 hform.symm).resolve_right hM
    have hterm := sum_zero_of_nonneg _ _ (fun a ha => by
      unfold weight; rw [hr]
      have := hm a ha
      simp only [Bool.false_eq_true, if_false, div_one]
      positivity) hsum pr hpr
    unfold weight at hterm
    rw [hr] at hterm
    simp only [Bool.false_eq_true, if_false, div_one] at hterm
    exact pow_eq_zero_iff (two_ne_zero) |>.1 ((mul_eq_zero.1 hterm).resolve_left (hm pr hpr).ne')
  · exfalso
    push Not at hv
    have hpos : ∀ k, 0 < (cfg.solver t).val k := by
      intro k
      have hp := selTensor_psd cfg st.sel (fun pr hpr => (hm pr hpr).le) ((cfg.solver t).vec k)
      rw [← hts, hE.eigen k 0, hE.eigen k 1, hE.eigen k 2] at hp
      have hd := dot_self_pos (hE.nonzero k)
      have : 0 ≤ (cfg.solver t).val k * dot ((cfg.solver t).vec k) ((cfg.solver t).vec k) := by
        unfold dot; linarith
      have h1 : 0 ≤ (cfg.solver t).val k := nonneg_of_mul_nonneg_left this hd
      exact lt_of_le_of_ne h1 (hv k).symm
    have hq' : √((cfg.solver t).val 1 / (cfg.solver t).val 2) ≠ 0 :=
      (Real.sqrt_pos.2 (div_pos (hpos 1) (hpos 2))).ne'
    have hs' : √((cfg.solver t).val 0 / (cfg.solver t).val 2) ≠ 0 :=
      (Real.sqrt_pos.2 (div_pos (hpos 0) (hpos 2))).ne'
    unfold pureIterate at h
    rw [ht] at h
    simp only [Option.bind_eq_bind, Option.bind_some] at h
    unfold diagonalise at h
    simp only [cdiv_of_ne (hpos 2).ne', cdiv_of_ne hq.ne', cdiv_of_ne hs.ne',
      normalise_axis _ (hE.nonzero 2), normalise_axis _ (hE.nonzero 1),
      normalise_axis _ (hE.nonzero 0), Option.bind_eq_bind, Option.bind_some] at h
    have hell : ∀ y, ∃ r, ellRadius2 √((cfg.solver t).val 1 / (cfg.solver t).val 2)
        √((cfg.solver t).val 0 / (cfg.solver t).val 2) y = some r := by
      intro y
      unfold ellRadius2
      rw [cdiv_of_ne (pow_ne_zero 2 hq'), cdiv_of_ne (pow_ne_zero 2 hs')]
      exact ⟨_, rfl⟩
    have hlater : ∀ y, ∃ b, laterTest cfg √((cfg.solver t).val 1 / (cfg.solver t).val 2)
        √((cfg.solver t).val 0 / (cfg.solver t).val 2) y = some b := by
      intro y
      obtain ⟨r, hr⟩ := hell y
      unfold laterTest
      rw [hr, hδ]
      simp only [Option.bind_eq_bind, Option.bind_some]
      split
      · exact ⟨_, rfl⟩
      · exact ⟨_, rfl⟩
    obtain ⟨rs, hrs⟩ := mapM_isSome (fun y => (ellRadius2 √((cfg.solver t).val 1 / (cfg.solver t).val 2)
        √((cfg.solver t).val 0 / (cfg.solver t).val 2) y).map Real.sqrt) _ (fun y _ => by
          obtain ⟨r, hr⟩ := hell y
          rw [hr]; simp)
    obtain ⟨bs, hbs⟩ := mapM_isSome (laterTest cfg √((cfg.solver t).val 1 / (cfg.solver t).val 2)
        √((cfg.solver t).val 0 / (cfg.solver t).val 2)) _ (fun y _ => by
          obtain ⟨r, hr⟩ := hlater y
          rw [hr]; simp)
    rw [hrs] at h
    simp only [Option.bind_some] at h
    rw [hbs] at h
    simp at h

theorem pureStep_none {cfg : Config} {st : PState} (h : pureStep cfg st = .stop none) :
    pureIterate cfg st = none := by
  unfold pureStep at h
  split at h
  · split at h
    · cases h
    · split at h
      · cases h
      · cases hp : pureIterate cfg st with
        | none => rfl
        | some st'' => rw [hp] at h; cases h
  · cases h

open Classical in
/-- A run which raises met a flat selection. -/
theorem pureRun_none_flat (fuel : Nat) (cfg : Config) (morph : Morph) (hsol : GoodSolver cfg.solver)
    (hr : cfg.reduced = false) (hδ : cfg.deltaD = none) (hm : ∀ p ∈ cfg.pts, 0 < p.m)
    (h : pureRun fuel cfg morph = some none) :
    ∃ major inter minor q s, Orthonormal major inter minor ∧ 0 < s ∧ 0 < q ∧ ∃ n : Vec ℝ, n ≠ 0 ∧
      FlatAlong cfg (cfg.pts.filter fun p => decide (Inside cfg major inter minor q s p)) n := by
  refine loop_ind (pureStep cfg)
    (fun st => ∃ major inter minor, Described cfg st major inter minor)
    (fun r => r = none → ∃ major inter minor q s, Orthonormal major inter minor ∧ 0 < s ∧ 0 < q ∧
      ∃ n : Vec ℝ, n ≠ 0 ∧
      FlatAlong cfg (cfg.pts.filter fun p => decide (Inside cfg major inter minor q s p)) n)
    ?_ ?_ fuel _ _ ⟨_, _, _, start_described cfg morph⟩ h rfl
  · rintro st st' ⟨major, inter, minor, hd⟩ hgo
    exact ⟨_, _, _, (iterate_described hsol (fun p hp => (hm p hp).le) hd (pureStep_go hgo).2.2).1⟩
  · rintro st r ⟨major, inter, minor, hd⟩ hstop rfl
    have hfst : st.sel.map Prod.fst =
        cfg.pts.filter fun p => decide (Inside cfg major inter minor st.q st.s p) := by
      rw [hd.sel, List.map_map]
      simp [Function.comp_def]
    obtain ⟨n, hn, hf⟩ := iterate_none_flat hsol hr hδ (fun pr hpr => hm _ (by
        have : pr.1 ∈ st.sel.map Prod.fst := List.mem_map_of_mem hpr
        rw [hfst] at this
        exact List.mem_of_mem_filter this)) hd.ratios.2 hd.ratios.1 (pureStep_none hstop)
    rw [hfst] at hf
    exact ⟨major, inter, minor, st.q, st.s, hd.frame, hd.ratios.1, hd.ratios.2, n, hn, hf⟩

open Classical in
/-- Flat objects with enough particles within the initial sphere raise in the first iteration. -/
theorem pureRun_flat (fuel : Nat) (cfg : Config) (morph : Morph) (hsol : GoodSolver cfg.solver)
    (hm : ∀ p ∈ cfg.pts, 0 ≤ p.m) (htol : cfg.tol < 1) (hw : 1 ≤ cfg.wall)
    (hmin : cfg.itMin ≤ ((cfg.pts.filter fun p => decide (initialTest cfg p = true)).length : Int))
    (n : Vec ℝ) (hn : n ≠ 0) (hflat : FlatAlong cfg cfg.pts n) :
    pureRun (fuel + 1) cfg morph = some none := by
  have hd := start_described cfg morph
  have hit := flat_iterate hsol hm hd hn (by
    intro p hp
    rw [hd.sel, List.map_map] at hp
    obtain ⟨p', hp', rfl⟩ := List.mem_map.1 hp
    exact hflat _ (List.mem_of_mem_filter hp'))
  have hlen : ((pureStart cfg morph).sel.length : Int) =
      ((cfg.pts.filter fun p => decide (initialTest cfg p = true)).length : Int) := by
    rw [hd.sel, List.length_map]
    congr 2
    apply List.filter_congr
    intro p _
    have := initialTest_eq cfg p
    show _ = decide (initialTest cfg p = true)
    rw [Bool.eq_iff_iff, this]
    simp only [pureStart, decide_eq_true_eq]
    exact @decide_eq_true_iff _ (_)
  unfold pureRun loop
  have hs : pureStep cfg (pureStart cfg morph) = .stop none := by
    unfold pureStep
    rw [if_pos (show (pureStart cfg morph).err > cfg.tol from htol),
      if_neg (show ¬ ((pureStart cfg morph).iteration : Int) > cfg.wall from by
        simp only [pureStart]; push_cast; omega), hlen, if_neg (not_lt.2 hmin), hit]
  rw [hs]

end Verif.Shapes
