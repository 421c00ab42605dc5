import Verif.Shapes.Examples
import Verif.Shapes.Flat

/-!
# Properties of the shape determination (C34-C42, C79, C80)
-/

namespace Verif.Shapes

open Verif.Par

/-- Scratch arrays of the right size. -/
def Fits (cfg : Config) (sc : Scratch) : Prop :=
  cfg.pts.length ≤ sc.shell.length ∧ cfg.pts.length ≤ sc.rEll.length

theorem fst_of_run {fuel : Nat} {cfg : Config} {morph m : Morph} {sc sc' : Scratch}
    (hf : Fits cfg sc) (h : runAlgo fuel cfg morph sc = some (some (m, sc'))) :
    pureRun fuel cfg morph = some (some m) := by
  rw [← (runAlgo_pure fuel cfg morph sc hf.1 hf.2).1, h]; rfl

/-! ## C34 -/

/-- C34. Whatever the particles, settings, eigenvalue routine and scratch contents: after evaluating
the loop condition `IT_WALL + 1` times (that is, after at most `IT_WALL` iterations) the algorithm has
finished, and later evaluations do not change the result. -/
theorem C34_terminates (cfg : Config) (morph : Morph) (sc : Scratch) :
    ∃ r, ∀ fuel, cfg.wall.toNat + 1 ≤ fuel → runAlgo fuel cfg morph sc = some r := by
  have h : (runAlgo (cfg.wall.toNat + 1) cfg morph sc).isSome := by
    apply loop_terminates
    · have : (start cfg morph sc).iteration = 1 := rfl
      rw [this]; push_cast; omega
    · omega
  obtain ⟨r, hr⟩ := Option.isSome_iff_exists.1 h
  exact ⟨r, fun fuel hf => loop_mono _ _ _ _ _ hf hr⟩

/-! ## C35, C36 -/

/-- C35. For tolerances below 1: if a shape is returned (neither an exception nor the zeros which mean
"unclassified"), it is self-consistent: there is an ellipsoid (or shell) with axes and ratios `q', s'`
containing at least `IT_MIN` particles, whose shape tensor has the returned axes and ratios, and the
returned ratios agree with `q', s'` up to the relative tolerance. -/
theorem C35_self_consistent (fuel : Nat) (cfg : Config) (morph m : Morph) (sc sc' : Scratch)
    (hf : Fits cfg sc) (hsol : GoodSolver cfg.solver) (hm : ∀ p ∈ cfg.pts, 0 ≤ p.m)
    (htol : cfg.tol < 1) (h : runAlgo fuel cfg morph sc = some (some (m, sc'))) (hz : m ≠ .zero) :
    ∃ major inter minor q s, SelfConsistent cfg m major inter minor q s :=
  (pureRun_consistent fuel cfg morph m hsol hm htol (fst_of_run hf h)).resolve_left hz

/-- Consequences of self-consistency for the reported values. -/
theorem SelfConsistent.ordered {cfg : Config} {m : Morph} {major inter minor : Vec ℝ} {q s : ℝ}
    (h : SelfConsistent cfg m major inter minor q s) : 0 < m.s ∧ m.s ≤ m.q ∧ m.q ≤ 1 := by
  obtain ⟨a, b, c, hc, hcb, hba, e1, e2, -⟩ := h.eigen
  have ha : 0 < a := by linarith
  rw [e1, e2]
  refine ⟨div_pos hc ha, (div_le_div_iff_of_pos_right ha).2 hcb, (div_le_one ha).2 hba⟩

/-- C36. Returned ratios satisfy `0 < s ≤ q ≤ 1` and the returned axes are orthonormal. They are
eigenvectors of the tensor of at least `IT_MIN` of the particles, the eigenvalue of the major axis being
the largest and that of the minor axis the smallest, with ratios `q²` and `s²`. -/
theorem C36_ordered_orthonormal (fuel : Nat) (cfg : Config) (morph m : Morph) (sc sc' : Scratch)
    (hf : Fits cfg sc) (hsol : GoodSolver cfg.solver) (hm : ∀ p ∈ cfg.pts, 0 ≤ p.m)
    (htol : cfg.tol < 1) (h : runAlgo fuel cfg morph sc = some (some (m, sc'))) (hz : m ≠ .zero) :
    (0 < m.s ∧ m.s ≤ m.q ∧ m.q ≤ 1) ∧ Orthonormal m.major m.inter m.minor ∧
    ∃ (w : Pt → ℝ) (used : List Pt) (l : ℝ), used.Sublist cfg.pts ∧
      cfg.itMin ≤ (used.length : Int) ∧ 0 < l ∧
      IsEigenvector (massTensor cfg w used) l m.major ∧
      IsEigenvector (massTensor cfg w used) (m.q ^ 2 * l) m.inter ∧
      IsEigenvector (massTensor cfg w used) (m.s ^ 2 * l) m.minor := by
  obtain ⟨major, inter, minor, q, s, hc⟩ :=
    C35_self_consistent fuel cfg morph m sc sc' hf hsol hm htol h hz
  refine ⟨hc.ordered, hc.axes, ?_⟩
  obtain ⟨a, b, c, hcp, hcb, hba, e1, e2, he⟩ := hc.eigen
  have ha : 0 < a := by linarith
  obtain ⟨v1, v2, v3⟩ := he _ rfl
  refine ⟨_, _, a ^ 2, List.filter_sublist, hc.enough, by positivity, v1, ?_, ?_⟩
  · rw [e1, div_pow, div_mul_cancel₀ _ (by positivity)]; exact v2
  · rw [e2, div_pow, div_mul_cancel₀ _ (by positivity)]; exact v3

/-- The hypotheses are met by the cross, for any eigenvalue routine; it is classified with
`q = 2/3`, `s = 1/3`. -/
theorem cross_classified (sol : Solver) (hsol : GoodSolver sol) (morph : Morph) (sc : Scratch)
    (hf : Fits (crossCfg sol) sc) : ∃ m sc', runAlgo 3 (crossCfg sol) morph sc = some (some (m, sc')) ∧
      m.q = 2 / 3 ∧ m.s = 1 / 3 ∧ m ≠ .zero := by
  obtain ⟨x, y, z, hx, hy, hz, hrun⟩ := cross_run sol hsol morph
  have h := (runAlgo_pure 3 (crossCfg sol) morph sc hf.1 hf.2).1
  rw [hrun 3 (le_refl _)] at h
  cases hr : runAlgo 3 (crossCfg sol) morph sc with
  | none => rw [hr] at h; simp at h
  | some r =>
    rw [hr] at h
    cases r with
    | none => simp at h
    | some r =>
      simp only [Option.map_some, Option.some.injEq] at h
      refine ⟨r.1, r.2, rfl, by rw [h], by rw [h], ?_⟩
      rw [h]
      intro hz
      have := congrArg Morph.q hz
      simp [Morph.zero] at this

example : ∃ sol : Solver, GoodSolver sol ∧ ∃ m sc',
    runAlgo 3 (crossCfg sol) .zero ⟨[], List.replicate 6 0, List.replicate 6 0, 0⟩ =
      some (some (m, sc')) ∧ m ≠ .zero ∧ (crossCfg sol).tol < 1 := by
  obtain ⟨sol, hsol⟩ := exists_goodSolver
  obtain ⟨m, sc', h, -, -, hz⟩ := cross_classified sol hsol .zero
    ⟨[], List.replicate 6 0, List.replicate 6 0, 0⟩ ⟨by simp [crossCfg, crossPts], by simp [crossCfg, crossPts]⟩
  exact ⟨sol, hsol, m, sc', h, hz, by norm_num [crossCfg]⟩

/-! ## C37 -/

/-- The particles the first `n` entries of `shell` refer to, with their radii. -/
def chosen (cfg : Config) (sc : Scratch) (n : Nat) : Sel :=
  (sc.shell.take n).filterMap fun k => lookup cfg sc.rEll k

/-- C37. The computed tensor is the mass-weighted mean of `y_i y_j` (divided by `r²` for the reduced
tensor) over the chosen particles, symmetric, and positive semidefinite for non-negative masses. -/
theorem C37_tensor (cfg : Config) (sc : Scratch) (n : Nat) (t : Tensor)
    (hn : n ≤ sc.shell.length) (hf : Fits cfg sc) (hm : ∀ p ∈ cfg.pts, 0 ≤ p.m)
    (h : calcShapeTensor cfg sc n = some t) :
    (∀ i j, t i j = ((chosen cfg sc n).map fun pr => pr.1.m * (pr.1.src i - cfg.srcCenter i) *
        (pr.1.src j - cfg.srcCenter j) / (if cfg.reduced then pr.2 ^ 2 else 1)).sum /
        ((chosen cfg sc n).map fun pr => pr.1.m).sum) ∧
    (∀ i j, t i j = t j i) ∧
    ∀ v : Vec ℝ, 0 ≤ dot v fun i => t i 0 * v 0 + t i 1 * v 1 + t i 2 * v 2 := by
  rw [calcShapeTensor_eq cfg sc n hn hf.2] at h
  have ht := pureTensor_some h
  refine ⟨?_, ?_, ?_⟩
  · intro i j; rw [ht]; rfl
  · intro i j; rw [ht]; exact selTensor_symm _ _ _ _
  · intro v
    rw [ht]
    apply selTensor_psd
    intro pr hpr
    obtain ⟨k, -, hk⟩ := List.mem_filterMap.1 hpr
    unfold lookup at hk
    simp only [Option.bind_eq_some_iff, Option.map_eq_some_iff] at hk
    obtain ⟨p, hp, r, -, rfl⟩ := hk
    exact hm p (List.mem_of_getElem? hp)

/-- Multiply all masses by `k`. -/
def scaleMass (k : ℝ) (cfg : Config) : Config :=
  { cfg with pts := cfg.pts.map fun p => { p with m := k * p.m } }

/-- C37. The tensor depends neither on the unit of mass nor on the order of the chosen particles. -/
theorem C37_scale_order (cfg : Config) (sc sc' : Scratch) (n : Nat) (k : ℝ) (hk : k ≠ 0)
    (hn : n ≤ sc.shell.length) (hn' : n ≤ sc'.shell.length) (hf : Fits cfg sc) (hf' : Fits cfg sc')
    (hr : sc'.rEll = sc.rEll) (hp : (sc'.shell.take n).Perm (sc.shell.take n)) :
    calcShapeTensor (scaleMass k cfg) sc' n = calcShapeTensor cfg sc n := by
  have hsame : Same (fun p => { p with m := k * p.m }) k cfg (scaleMass k cfg) :=
    ⟨List.Perm.refl _, fun _ _ _ => rfl, fun _ _ _ => rfl, fun _ _ => rfl, hk, rfl, rfl, rfl, rfl, rfl,
      rfl, rfl⟩
  rw [calcShapeTensor_eq (scaleMass k cfg) sc' n hn' (by simpa [scaleMass] using hf'.2),
    calcShapeTensor_eq cfg sc n hn hf.2]
  apply hsame.tensor
  have hl : ∀ r, lookup (scaleMass k cfg) sc.rEll r =
      (lookup cfg sc.rEll r).map fun pr => ({ pr.1 with m := k * pr.1.m }, pr.2) := by
    intro r
    unfold lookup scaleMass
    simp only [List.getElem?_map]
    cases cfg.pts[r]? with
    | none => rfl
    | some p =>
      cases sc.rEll[r]? with
      | none => rfl
      | some x => rfl
  constructor
  · refine (hp.filterMap _).trans ?_
    rw [hr, List.map_filterMap]
    apply List.Perm.of_eq
    apply List.filterMap_congr
    intro r _
    exact hl r
  · intro pr hpr
    obtain ⟨r, -, hr⟩ := List.mem_filterMap.1 hpr
    unfold lookup at hr
    simp only [Option.bind_eq_some_iff, Option.map_eq_some_iff] at hr
    obtain ⟨p, hp, x, -, rfl⟩ := hr
    exact List.mem_of_getElem? hp

/-- The tensor of the cross. -/
example (sol : Solver) : ∃ t, calcShapeTensor (crossCfg sol)
    ⟨[], [0, 1, 2, 3, 4, 5], [0, 0, 0, 0, 0, 0], 0⟩ 6 = some t ∧ t 1 1 = 4 / 3 := by
  rw [calcShapeTensor_eq _ _ _ (by simp) (by simp [crossCfg, crossPts])]
  have := cross_tensor sol 0 0 0 0 0 0
  refine ⟨_, this, by simp⟩

/-! ## C38, C79 -/

/-- The result of a run without the scratch memory it leaves behind. -/
def result (r : Option (Option (Morph × Scratch))) : Option (Option Morph) :=
  r.map (Option.map Prod.fst)

/-- Move positions and their center by `t`, tensor vectors and their center by `u`. -/
def move (t u : Vec ℝ) (cfg : Config) : Config :=
  { cfg with
    pts := cfg.pts.map fun p => { p with x := p.x + t, src := p.src + u }
    center := cfg.center + t
    srcCenter := cfg.srcCenter + u }

/-- C38. Moving the object (positions and center by `t`; for velocity dispersion tensors also a boost by
`u`) does not change the result, in every number of iterations. -/
theorem C38_translation (fuel : Nat) (cfg : Config) (t u : Vec ℝ) (morph : Morph) (sc sc' : Scratch)
    (hf : Fits cfg sc) (hf' : Fits cfg sc') :
    result (runAlgo fuel (move t u cfg) morph sc') = result (runAlgo fuel cfg morph sc) := by
  have hsame : Same (fun p => { p with x := p.x + t, src := p.src + u }) 1 cfg (move t u cfg) :=
    ⟨List.Perm.refl _, fun p _ i => by simp [move], fun p _ i => by simp [move], fun p _ => by simp,
      one_ne_zero, rfl, rfl, rfl, rfl, rfl, rfl, rfl⟩
  unfold result
  rw [(runAlgo_pure fuel cfg morph sc hf.1 hf.2).1,
    (runAlgo_pure fuel (move t u cfg) morph sc' (by simpa [move] using hf'.1)
      (by simpa [move] using hf'.2)).1]
  exact hsame.run fuel morph

/-- The cross, moved, is classified as before. -/
example (sol : Solver) (hsol : GoodSolver sol) : ∃ m, m.q = 2 / 3 ∧
    result (runAlgo 3 (move ![5, 6, 7] ![5, 6, 7] (crossCfg sol)) .zero
      ⟨[], List.replicate 6 0, List.replicate 6 0, 0⟩) = some (some m) := by
  have hf : Fits (crossCfg sol) ⟨[], List.replicate 6 0, List.replicate 6 0, 0⟩ :=
    ⟨by simp [crossCfg, crossPts], by simp [crossCfg, crossPts]⟩
  obtain ⟨m, sc', h, hq, -, -⟩ := cross_classified sol hsol .zero _ hf
  refine ⟨m, hq, ?_⟩
  rw [C38_translation 3 (crossCfg sol) _ _ _ _ _ hf hf, h]
  rfl

/-- C79. Listing the particles in another order and using another unit of mass does not change the
result. -/
theorem C79_order_and_mass_unit (fuel : Nat) (cfg : Config) (pts' : List Pt) (k : ℝ) (hk : k ≠ 0)
    (hp : pts'.Perm (cfg.pts.map fun p => { p with m := k * p.m })) (morph : Morph)
    (sc sc' : Scratch) (hf : Fits cfg sc) (hf' : Fits { cfg with pts := pts' } sc') :
    result (runAlgo fuel { cfg with pts := pts' } morph sc') = result (runAlgo fuel cfg morph sc) := by
  have hsame : Same (fun p => { p with m := k * p.m }) k cfg { cfg with pts := pts' } :=
    ⟨hp, fun _ _ _ => rfl, fun _ _ _ => rfl, fun _ _ => rfl, hk, rfl, rfl, rfl, rfl, rfl, rfl, rfl⟩
  unfold result
  rw [(runAlgo_pure fuel cfg morph sc hf.1 hf.2).1,
    (runAlgo_pure fuel { cfg with pts := pts' } morph sc' hf'.1 hf'.2).1]
  exact hsame.run fuel morph

example (sol : Solver) : (crossPts.reverse.map fun p => { p with m := 2 * p.m }).Perm
    ((crossCfg sol).pts.map fun p => { p with m := 2 * p.m }) :=
  (List.reverse_perm _).map _

/-! ## C39 -/

/-- C39 is false: with a tolerance of 1 or more no iteration is performed; whatever the particles, the
algorithm returns the array it was given. -/
theorem C39_no_iteration_refuted (fuel : Nat) (cfg : Config) (morph : Morph) (sc : Scratch)
    (hf : Fits cfg sc) (htol : 1 ≤ cfg.tol) :
    result (runAlgo (fuel + 1) cfg morph sc) = some (some morph) := by
  unfold result
  rw [(runAlgo_pure (fuel + 1) cfg morph sc hf.1 hf.2).1]
  unfold pureRun loop pureStep
  rw [if_neg (by simpa [pureStart] using htol)]
  rfl

theorem aloneShapes_global (st : Settings) (o : ObjData) :
    aloneShapes st .globalShape o = pureGlobal st (positionPts st o) o.center o.center o.r200 1 := rfl

/-- C39 is false for catalogues: with a tolerance of 1 or more the global shape of every object with
some extent is a radius without axis ratios and axes (`q = s = 0`, reported as NaN). -/
theorem C39_catalogue_refuted (st : Settings) (o : ObjData) (htol : 1 ≤ st.tol)
    (hsp : localSpread (positionPts st o) ≠ 0) :
    aloneShapes st .globalShape o = some [{ Morph.zero with d := o.r200 + st.safe }] := by
  rw [aloneShapes_global]
  unfold pureGlobal
  rw [if_neg hsp]
  unfold pureLoop
  simp only [List.replicate_one, List.mapM_cons, List.mapM_nil]
  have : pureOne (st.config (positionPts st o) o.center o.center (o.r200 + st.safe) none)
      { Morph.zero with d := o.r200 + st.safe } = some { Morph.zero with d := o.r200 + st.safe } := by
    unfold pureOne pureRun loop pureStep
    rw [if_neg (by simpa [pureStart, Settings.config] using htol)]
    rfl
  rw [this]
  rfl

/-- Part of C39 which holds: for tolerances below 1 the returned values are computed from the particles
(`SelfConsistent`) or all zero. -/
theorem C39_from_iteration_partial (fuel : Nat) (cfg : Config) (morph m : Morph) (sc sc' : Scratch)
    (hf : Fits cfg sc) (hsol : GoodSolver cfg.solver) (hm : ∀ p ∈ cfg.pts, 0 ≤ p.m)
    (htol : cfg.tol < 1) (h : runAlgo fuel cfg morph sc = some (some (m, sc'))) :
    m = .zero ∨ ∃ major inter minor q s, SelfConsistent cfg m major inter minor q s :=
  pureRun_consistent fuel cfg morph m hsol hm htol (fst_of_run hf h)

/-! ## C40 -/

/-- `a[a==0.0] = np.nan`, shape_profs_algos.pyx:727-732; `none` = NaN. -/
noncomputable def nanZero (x : ℝ) : Option ℝ := if x = 0 then none else some x

/-- The catalogue entries of one radius. -/
structure Reported where
  d : Option ℝ
  q : Option ℝ
  s : Option ℝ
  major : Fin 3 → Option ℝ
  inter : Fin 3 → Option ℝ
  minor : Fin 3 → Option ℝ

/-- Post-processing, shape_profs_algos.pyx:619-628, 724-732, 844-852, 960-968. -/
noncomputable def report (m : Morph) : Reported :=
  ⟨nanZero m.d, nanZero m.q, nanZero m.s, fun i => nanZero (m.major i), fun i => nanZero (m.inter i),
    fun i => nanZero (m.minor i)⟩

/-- C40 is false: the cross is classified with the axes along the coordinate axes, and the catalogue
reports a major axis `(±1, NaN, NaN)`, whatever eigenvalue routine is used. -/
theorem C40_axis_aligned_refuted (sol : Solver) (hsol : GoodSolver sol) (morph : Morph) (sc : Scratch)
    (hf : Fits (crossCfg sol) sc) :
    ∃ m sc', runAlgo 3 (crossCfg sol) morph sc = some (some (m, sc')) ∧
      Orthonormal m.major m.inter m.minor ∧ (m.major 0 = 1 ∨ m.major 0 = -1) ∧
      (report m).major 1 = none ∧ (report m).major 2 = none := by
  obtain ⟨x, y, z, hx, hy, hz, hrun⟩ := cross_run sol hsol morph
  have h := (runAlgo_pure 3 (crossCfg sol) morph sc hf.1 hf.2).1
  rw [hrun 3 (le_refl _)] at h
  cases hr : runAlgo 3 (crossCfg sol) morph sc with
  | none => rw [hr] at h; simp at h
  | some r =>
    rw [hr] at h
    cases r with
    | none => simp at h
    | some r =>
      simp only [Option.map_some, Option.some.injEq] at h
      refine ⟨r.1, r.2, rfl, ?_, ?_, ?_, ?_⟩
      · rw [h]; simp [Orthonormal, dot, ← pow_two, hx, hy, hz]
      · rw [h]; exact sq_eq_sq_iff_eq_or_eq_neg.1 (by rw [one_pow]; exact hx)
      · rw [h]; simp [report, nanZero]
      · rw [h]; simp [report, nanZero]

/-- Part of C40 which holds: non-zero numbers are reported as they are, and only zeros become NaN. -/
theorem C40_nonzero_partial (m : Morph) (i : Fin 3) :
    (m.major i ≠ 0 → (report m).major i = some (m.major i)) ∧
    (m.inter i ≠ 0 → (report m).inter i = some (m.inter i)) ∧
    (m.minor i ≠ 0 → (report m).minor i = some (m.minor i)) ∧
    (∀ x, (report m).major i = some x → x = m.major i) ∧
    (∀ x, (report m).inter i = some x → x = m.inter i) ∧
    (∀ x, (report m).minor i = some x → x = m.minor i) := by
  have h1 : ∀ x : ℝ, x ≠ 0 → nanZero x = some x := fun x h => by unfold nanZero; rw [if_neg h]
  have h2 : ∀ x y : ℝ, nanZero x = some y → y = x := by
    intro x y h
    unfold nanZero at h
    split at h
    · cases h
    · exact (Option.some.inj h).symm
  exact ⟨h1 _, h1 _, h1 _, h2 _, h2 _, h2 _⟩

/-! ## C41 -/

/-- C41. For all four catalogues (local/global, positions/velocities): however many threads there are,
however objects are distributed and steps interleave, and whatever the scratch arrays contain (for the
local velocity catalogue: zeros in the velocity array, as allocated), the entry of each object is what
it would be on its own, together with its total mass. -/
theorem C41_schedule_independent {T : Type} [DecidableEq T] (st : Settings) (kind : Kind)
    (objs : List ObjData) (largest : Nat) (hl : ∀ o ∈ objs, o.particles.length ≤ largest)
    (scratch : T → ObjScratch) (hs : ∀ t, Inv st kind largest (scratch t)) (init : Option (List Morph))
    (ws : List (Step T Nat ObjScratch Slot))
    (ex : Execution (fun p => (objs[p]?.map (shapeBody st kind)).getD []) (List.range objs.length) ws)
    (p : Nat) (o : ObjData) (hp : objs[p]? = some o) :
    (runSteps ws ⟨scratch, fun _ => ⟨0, init⟩⟩).out p =
      ⟨(o.particles.map fun p => p.mass).sum, aloneShapes st kind o⟩ :=
  parallel_shapes st kind objs largest hl scratch hs init ws ex p o hp

/-- Two objects on one thread with garbage in the scratch arrays. -/
example (st : Settings) (c : Vec ℝ) (garbage : Tensor) (m : Morph) :
    ∃ ws : List (Step Unit Nat ObjScratch Slot),
    (runSteps ws ⟨fun _ => ⟨[c, c], [c, c], [3, 4], [m], ⟨[c], [7, 7], [5, 5], garbage⟩⟩,
      fun _ => ⟨0, none⟩⟩).out 1 =
      ⟨5, aloneShapes st .globalShape ⟨[⟨![1, 0, 0], 0, 5⟩], c, 1⟩⟩ := by
  refine ⟨_, (C41_schedule_independent st .globalShape
    [⟨[⟨![1, 0, 0], 0, 5⟩, ⟨![3, 0, 0], 0, 7⟩], c, 2⟩, ⟨[⟨![1, 0, 0], 0, 5⟩], c, 1⟩]
    2 (by simp) _ (by simp [Inv, columns]) none _
    (Execution.oneThread _ _ (List.nodup_range) ()) 1 _ rfl).trans ?_⟩
  simp

/-! ## C42 -/

theorem velocityMean_zero {o : ObjData} {vc : Vec ℝ} (h : velocityMean o (fun _ => 0) = some vc) :
    vc = 0 := by
  unfold velocityMean velocityCenter at h
  split at h
  · cases h
  · rw [← Option.some.inj h]
    unfold Periodic.cyCalcCoM
    simp only
    generalize (List.zipWith Particle.mk (o.particles.map fun _ => (0 : Vec ℝ))
        (o.particles.map fun p => p.mass)).foldl (fun acc p => acc + p.mass) 0 = M
    have gen : ∀ (ps : List Part), (List.zipWith Particle.mk (ps.map fun _ => (0 : Vec ℝ))
        (ps.map fun p => p.mass)).foldl
        (fun (com : Vec ℝ) p i => com i + p.mass * p.pos i / M) 0 = 0 := by
      intro ps
      induction ps with
      | nil => rfl
      | cons p ps ih =>
        simp only [List.map_cons, List.zipWith_cons_cons, List.foldl_cons]
        have : (fun i => (0 : Vec ℝ) i + p.mass * (0 : Vec ℝ) i / M) = (0 : Vec ℝ) := by
          funext i; simp
        rw [this]; exact ih
    exact gen _

/-- If all vectors entering the tensor equal their center, no shape is returned. -/
theorem zero_source {cfg : Config} {m : Morph} {major inter minor : Vec ℝ} {q s : ℝ}
    (h : SelfConsistent cfg m major inter minor q s)
    (hsrc : ∀ p ∈ cfg.pts, ∀ i, p.src i - cfg.srcCenter i = 0) : False := by
  obtain ⟨a, b, c, hc, hcb, hba, -, -, he⟩ := h.eigen
  obtain ⟨h1, -, -⟩ := he _ rfl
  have ha : 0 < a ^ 2 := by have : 0 < a := by linarith
                            positivity
  have ht : ∀ (w : Pt → ℝ) (ps : List Pt), (∀ p ∈ ps, p ∈ cfg.pts) → ∀ i j,
      massTensor cfg w ps i j = 0 := by
    intro w ps hps i j
    unfold massTensor
    rw [List.sum_eq_zero, zero_div]
    intro x hx
    obtain ⟨p, hp, rfl⟩ := List.mem_map.1 hx
    rw [hsrc p (hps p hp), hsrc p (hps p hp)]; simp
  have hz : ∀ i, m.major i = 0 := by
    intro i
    have := h1 i
    rw [ht _ _ (fun p hp => List.mem_of_mem_filter hp), ht _ _ (fun p hp => List.mem_of_mem_filter hp),
      ht _ _ (fun p hp => List.mem_of_mem_filter hp)] at this
    simp only [zero_mul, add_zero] at this
    exact (mul_eq_zero.1 this.symm).resolve_left ha.ne'
  have := h.axes.1
  unfold dot at this
  rw [hz, hz, hz] at this
  norm_num at this

theorem pureOne_consistent {cfg : Config} {morph m : Morph} (hsol : GoodSolver cfg.solver)
    (hm : ∀ p ∈ cfg.pts, 0 ≤ p.m) (htol : cfg.tol < 1) (h : pureOne cfg morph = some m) :
    m = .zero ∨ ∃ major inter minor q s, SelfConsistent cfg m major inter minor q s := by
  unfold pureOne at h
  cases hr : pureRun (cfg.wall.toNat + 1) cfg morph with
  | none => rw [hr] at h; simp at h
  | some r =>
    rw [hr] at h
    simp only [Option.join_some] at h
    subst h
    exact pureRun_consistent _ cfg morph m hsol hm htol hr

theorem velocityPts_mass (st : Settings) (o : ObjData) (vel : Part → Vec ℝ)
    (hm : ∀ p ∈ o.particles, 0 ≤ p.mass) : ∀ p ∈ velocityPts st o vel, 0 ≤ p.m := by
  intro p hp
  unfold velocityPts at hp
  rw [← List.map_uncurry_zip_eq_zipWith] at hp
  obtain ⟨xp, hxp, rfl⟩ := List.mem_map.1 hp
  exact hm _ (List.of_mem_zip hxp).2

theorem velocityPts_src (st : Settings) (o : ObjData) (vel : Part → Vec ℝ) :
    ∀ p ∈ velocityPts st o vel, ∃ q ∈ o.particles, p.src = vel q := by
  intro p hp
  unfold velocityPts at hp
  rw [← List.map_uncurry_zip_eq_zipWith] at hp
  obtain ⟨xp, hxp, rfl⟩ := List.mem_map.1 hp
  exact ⟨_, (List.of_mem_zip hxp).2, rfl⟩

/-- C42 is false: no execution of the local velocity dispersion catalogue ever looks at a velocity.
Changing all velocities changes nothing. -/
theorem C42_velocities_ignored_refuted {T : Type} [DecidableEq T] (st : Settings)
    (objs : List ObjData) (vel' : Part → Vec ℝ) (largest : Nat)
    (hl : ∀ o ∈ objs, o.particles.length ≤ largest)
    (scratch : T → ObjScratch) (hs : ∀ t, Inv st .localVel largest (scratch t))
    (init : Option (List Morph)) (ws ws' : List (Step T Nat ObjScratch Slot))
    (change : ObjData → ObjData)
    (hchange : change = fun o => { o with particles := o.particles.map fun p => { p with vel := vel' p } })
    (ex : Execution (fun p => (objs[p]?.map (shapeBody st .localVel)).getD [])
      (List.range objs.length) ws)
    (ex' : Execution (fun p => ((objs.map change)[p]?.map (shapeBody st .localVel)).getD [])
      (List.range (objs.map change).length) ws')
    (p : Nat) (hp : p < objs.length) :
    (runSteps ws ⟨scratch, fun _ => ⟨0, init⟩⟩).out p =
      (runSteps ws' ⟨scratch, fun _ => ⟨0, init⟩⟩).out p := by
  have h1 := parallel_shapes st .localVel objs largest hl scratch hs init ws ex p _
    (List.getElem?_eq_getElem hp)
  have h2 := parallel_shapes st .localVel (objs.map change) largest (by
      intro o ho
      obtain ⟨o', ho', rfl⟩ := List.mem_map.1 ho
      subst hchange
      simpa using hl o' ho') scratch hs init ws' ex' p (change objs[p])
    (by rw [List.getElem?_map, List.getElem?_eq_getElem hp]; rfl)
  rw [h1, h2]
  subst hchange
  simp only [List.map_map, Function.comp_def]
  congr 1
  unfold aloneShapes velocityMean velocityPts unwrapped
  simp [List.zipWith_map_right, List.map_map, Function.comp_def]

/-- C42 is false: with tolerances below 1 and non-negative masses the local velocity dispersion
catalogue never contains a shape: each object is unclassified at all radii or makes the call raise. -/
theorem C42_never_a_shape_refuted (st : Settings) (o : ObjData) (hsol : GoodSolver st.solver)
    (hm : ∀ p ∈ o.particles, 0 ≤ p.mass) (htol : st.tol < 1) (ms : List Morph)
    (h : aloneShapes st .localVel o = some ms) : ∀ m ∈ ms, m = .zero := by
  intro m hmem
  unfold aloneShapes at h
  simp only [Option.bind_eq_some_iff] at h
  obtain ⟨vc, hvc, h⟩ := h
  have hvc := velocityMean_zero hvc
  subst hvc
  unfold pureLocal at h
  split at h
  · obtain rfl := Option.some.inj h; exact List.eq_of_mem_replicate hmem
  · split at h
    · obtain rfl := Option.some.inj h; exact List.eq_of_mem_replicate hmem
    · unfold pureLoop at h
      have hfa := mapM_map_some (fun row : (ℝ × Option ℝ) × Morph =>
        pureOne (st.config (velocityPts st o fun _ => 0) o.center 0 row.1.1 row.1.2) row.2) _ _ _ h
      obtain ⟨k, hrow⟩ : ∃ k : Nat, pureOne (st.config (velocityPts st o fun _ => 0) o.center 0
          (shellAt st o.r200 k).1 (shellAt st o.r200 k).2)
          { Morph.zero with d := (shellAt st o.r200 k).1 } = some m := by
        obtain ⟨i, hi, rfl⟩ := List.mem_iff_getElem.1 hmem
        have hlen := hfa.length_eq
        exact ⟨_, (List.forall₂_iff_get.1 hfa).2 i (by omega) hi⟩
      rcases pureOne_consistent (by exact hsol) (by exact velocityPts_mass st o _ hm) htol hrow with
        hz | ⟨major, inter, minor, q, s, hc⟩
      · exact hz
      · exfalso
        apply zero_source hc
        intro p hp i
        obtain ⟨q, -, hq⟩ := velocityPts_src st o _ p hp
        rw [hq]
        simp [Settings.config]

/-- Part of C42 which holds: a shape in the global velocity dispersion catalogue is the self-consistent
shape for the tensor of the velocities relative to their mean. -/
theorem C42_global_partial (st : Settings) (o : ObjData) (hsol : GoodSolver st.solver)
    (hm : ∀ p ∈ o.particles, 0 ≤ p.mass) (htol : st.tol < 1) (m : Morph)
    (h : aloneShapes st .globalVel o = some [m]) (hz : m ≠ .zero) :
    ∃ vc, velocityMean o (fun p => p.vel) = some vc ∧ ∃ major inter minor q s,
      SelfConsistent (st.config (velocityPts st o fun p => p.vel) o.center vc (o.r200 + st.safe) none) m
        major inter minor q s := by
  unfold aloneShapes at h
  simp only [Option.bind_eq_some_iff] at h
  obtain ⟨vc, hvc, h⟩ := h
  refine ⟨vc, hvc, ?_⟩
  unfold pureGlobal at h
  split at h
  · simp only [List.replicate_one, Option.some.injEq, List.cons.injEq, and_true] at h
    exact absurd h.symm hz
  · unfold pureLoop at h
    simp only [List.replicate_one, List.mapM_cons, List.mapM_nil, Option.bind_eq_bind,
      Option.bind_eq_some_iff, Option.pure_def, Option.some.injEq, List.cons.injEq] at h
    obtain ⟨m', hm', x, rfl, rfl, -⟩ := h
    exact (pureOne_consistent (by exact hsol) (by exact velocityPts_mass st o _ hm) htol hm').resolve_left
      hz

/-! ## C80 -/

open Classical in
/-- C80 is false: if all particles of an object lie in a plane through its center (in the sense of the
tensor: positions for shapes, velocities for velocity dispersions) and at least `IT_MIN` of them are
within the search radius, the algorithm does not report "unclassified" but raises. -/
theorem C80_flat_object_refuted (fuel : Nat) (cfg : Config) (morph : Morph) (sc : Scratch)
    (hf : Fits cfg sc) (hsol : GoodSolver cfg.solver) (hm : ∀ p ∈ cfg.pts, 0 ≤ p.m)
    (htol : cfg.tol < 1) (hw : 1 ≤ cfg.wall)
    (hmin : cfg.itMin ≤ ((cfg.pts.filter fun p => decide (initialTest cfg p = true)).length : Int))
    (n : Vec ℝ) (hn : n ≠ 0)
    (hflat : ∀ p ∈ cfg.pts, dot n (fun i => p.src i - cfg.srcCenter i) = 0) :
    runAlgo (fuel + 1) cfg morph sc = some none := by
  have h := pureRun_flat fuel cfg morph hsol hm htol hw hmin n hn hflat
  rw [← (runAlgo_pure (fuel + 1) cfg morph sc hf.1 hf.2).1] at h
  cases hr : runAlgo (fuel + 1) cfg morph sc with
  | none => rw [hr] at h; simp at h
  | some r =>
    rw [hr] at h
    cases r with
    | none => rfl
    | some r => simp at h

/-- Four particles in a plane, `IT_MIN = 4`. -/
example (sol : Solver) (hsol : GoodSolver sol) :
    runAlgo 101 { crossCfg sol with pts := crossPts.take 4, itMin := 4 } .zero
      ⟨[], [0, 0, 0, 0], [0, 0, 0, 0], 0⟩ = some none := by
  apply C80_flat_object_refuted 100 { crossCfg sol with pts := crossPts.take 4, itMin := 4 } .zero
      ⟨[], [0, 0, 0, 0], [0, 0, 0, 0], 0⟩ ⟨by simp [crossPts], by simp [crossPts]⟩ hsol
    (by simp [crossPts]) (by norm_num [crossCfg]) (by norm_num [crossCfg]) _ ![0, 0, 1]
    (fun h => by simpa using congrFun h 2)
    (by simp [crossPts, crossCfg, dot])
  have : ((crossPts.take 4).filter fun p => decide (initialTest
      { crossCfg sol with pts := crossPts.take 4, itMin := 4 } p = true)) = crossPts.take 4 := by
    apply List.filter_eq_self.2
    intro p hp
    simp only [crossPts, List.take_succ_cons, List.take_zero, List.mem_cons, List.not_mem_nil,
      or_false] at hp
    rcases hp with rfl | rfl | rfl | rfl <;>
    · norm_num [initialTest, crossCfg, Binning.dist2, vec3_2]
  simp only [this]
  simp [crossPts]

open Classical in
/-- Part of C80 which holds: with the unreduced tensor and ellipsoids (not shells), and positive masses,
the algorithm raises only if the particles in some ellipsoid around the center lie in a plane through
the center. -/
theorem C80_only_flat_partial (fuel : Nat) (cfg : Config) (morph : Morph) (sc : Scratch)
    (hf : Fits cfg sc) (hsol : GoodSolver cfg.solver) (hr : cfg.reduced = false)
    (hδ : cfg.deltaD = none) (hm : ∀ p ∈ cfg.pts, 0 < p.m)
    (h : runAlgo fuel cfg morph sc = some none) :
    ∃ major inter minor q s, Orthonormal major inter minor ∧ 0 < s ∧ 0 < q ∧ ∃ n : Vec ℝ, n ≠ 0 ∧
      ∀ p ∈ cfg.pts, Inside cfg major inter minor q s p →
        dot n (fun i => p.src i - cfg.srcCenter i) = 0 := by
  have h' : pureRun fuel cfg morph = some none := by
    rw [← (runAlgo_pure fuel cfg morph sc hf.1 hf.2).1, h]; rfl
  obtain ⟨major, inter, minor, q, s, ho, hs, hq, n, hn, hfl⟩ :=
    pureRun_none_flat fuel cfg morph hsol hr hδ hm h'
  refine ⟨major, inter, minor, q, s, ho, hs, hq, n, hn, fun p hp hin => hfl p ?_⟩
  rw [List.mem_filter]
  exact ⟨hp, by simpa using hin⟩

end Verif.Shapes
