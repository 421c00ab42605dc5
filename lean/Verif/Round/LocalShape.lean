import Verif.Round.EdgeTest
import Verif.Shapes.Stratified

/-!
# Local shapes with rounding (C177)

The ellipsoid-based iteration with every operation rounded, for ellipsoids which contain only a part of the particles.
-/

namespace Verif.Round

open Verif.Shapes
open Verif (Vec Particle)

/-! ## Specification -/

/-- No particle is at the edge of the ellipsoid: its squared ellipsoidal radius differs from `d ^ 2` by more than the fraction `μ`. -/
def ClearOfEdge (cfg : Config) (μ : ℝ) (e : Ellipsoid) : Prop :=
  ∀ p ∈ cfg.pts, ellipsoidal2 e.major e.inter e.minor e.q e.s (rel cfg p) < (1 - μ) * cfg.d ^ 2 ∨
    (1 + μ) * cfg.d ^ 2 < ellipsoidal2 e.major e.inter e.minor e.q e.s (rel cfg p)

/-- The ratios have changed by less than the tolerance, with a margin. -/
def ClearlySettled (cfg : Config) (ε : ℝ) (e e' : Ellipsoid) : Prop :=
  |e'.q - e.q| ≤ (cfg.tol - ε) * e.q ∧ |e'.s - e.s| ≤ (cfg.tol - ε) * e.s

/-- A ratio has changed by more than the tolerance, with a margin. -/
def ClearlyUnsettled (cfg : Config) (ε : ℝ) (e e' : Ellipsoid) : Prop :=
  (cfg.tol + ε) * e.q < |e'.q - e.q| ∨ (cfg.tol + ε) * e.s < |e'.s - e.s|

/-- The exact iteration comes to `e` after `n` steps, and all decisions on the way are clear: which particles are in the ellipsoids and that
the ratios have not settled. No ellipsoid is flatter than `f`. -/
inductive ClearPath (cfg : Config) (f μ ε : ℝ) : Nat → Ellipsoid → Prop
  | sphere (clear : ClearOfEdge cfg μ sphere) : ClearPath cfg f μ ε 0 sphere
  | step {n : Nat} {e e' : Ellipsoid} (h : ClearPath cfg f μ ε n e) (enough : cfg.itMin ≤ ((members cfg e).length : Int))
      (axes : PrincipalAxes cfg e e') (flat : f ≤ e'.s) (unsettled : ClearlyUnsettled cfg ε e e') (clear : ClearOfEdge cfg μ e') :
      ClearPath cfg f μ ε (n + 1) e'

/-- The particles in the ellipsoid, by themselves. -/
noncomputable def inEllipsoid (cfg : Config) (e : Ellipsoid) : Config := { cfg with pts := members cfg e }

/-- The computed shape `m` is close to the exact one, `e'`, of the particles in `e`: the squares of the axis ratios differ by no more than
`bound`, the axes have unit length up to rounding, and the mean square along the major axis is nearly the largest, that along the minor axis
nearly the smallest. -/
structure CloseTo (R : Rounding) (cfg : Config) (bound : ℝ) (e e' : Ellipsoid) (m : Morph) : Prop where
  d : m.d = cfg.d
  q : |m.q ^ 2 - e'.q ^ 2| ≤ bound
  s : |m.s ^ 2 - e'.s ^ 2| ≤ bound
  unit_major : |dot m.major m.major - 1| ≤ 20 * R.u
  unit_inter : |dot m.inter m.inter - 1| ≤ 20 * R.u
  unit_minor : |dot m.minor m.minor - 1| ≤ 20 * R.u
  major : (1 - 2 * bound) * momentAlong (inEllipsoid cfg e) e'.major ≤ momentAlong (inEllipsoid cfg e) m.major
  minor : momentAlong (inEllipsoid cfg e) m.minor ≤
    momentAlong (inEllipsoid cfg e) e'.minor + 2 * bound * momentAlong (inEllipsoid cfg e) e'.major

/-! ## Proof -/

section

variable {R S : Rounding}

theorem select_map (pts : List Pt) (rs : List ℝ) (g : Pt → Bool) (hr : rs.length = pts.length) :
    (select pts rs (pts.map g)).map Prod.fst = pts.filter g := by
  unfold select
  induction pts generalizing rs with
  | nil => simp
  | cons p pts ih =>
    cases rs with
    | nil => simp at hr
    | cons r rs =>
      have := ih rs (by simpa using hr)
      simp only [List.map_cons, List.zip_cons_cons, List.filterMap_cons, List.filter_cons]
      cases g p
      · simpa using this
      · simpa using this

/-- The exact second moments of the particles in the ellipsoid. -/
theorem principal_members (cfg : Config) (hred : cfg.reduced = false) (hm : ∀ p ∈ cfg.pts, 0 < p.m) {e e' : Ellipsoid}
    (h : PrincipalAxes cfg e e') :
    ∃ a b c, Principal (secondMoments (inEllipsoid cfg e)) a b c e'.major e'.inter e'.minor ∧ e'.q = b / a ∧ e'.s = c / a := by
  obtain ⟨a, b, c, hp, hq, hs⟩ := h.principal
  set M := ((members cfg e).map Pt.m).sum with hM
  have ht : ∀ i j, tensorOf cfg e i j = secondMoments (inEllipsoid cfg e) i j / M := by
    intro i j
    unfold tensorOf massTensor secondMoments inEllipsoid
    simp only [hred, Bool.false_eq_true, if_false, div_one]
    rfl
  have hM0 : 0 ≤ M := by
    rw [hM]
    refine List.sum_nonneg fun m hm' => ?_
    obtain ⟨p, hp', rfl⟩ := List.mem_map.1 hm'
    exact (hm p (List.mem_of_mem_filter hp')).le
  have hc := hp.pos
  have hMp : 0 < M := by
    refine lt_of_le_of_ne hM0 fun h0 => ?_
    have hz : ∀ i j, tensorOf cfg e i j = 0 := fun i j => by rw [ht, ← h0, div_zero]
    have n := hp.axes.2.2.1
    have h1 : ∀ i, e'.minor i = 0 := by
      intro i
      have := hp.minor i
      rw [hz, hz, hz] at this
      have hc2 : c ^ 2 ≠ 0 := by positivity
      simpa [hc2] using this.symm
    unfold dot at n
    rw [h1, h1, h1] at n
    norm_num at n
  have hr : 0 < √M := Real.sqrt_pos.2 hMp
  have hsq : √M ^ 2 = M := Real.sq_sqrt hM0
  have hev : ∀ (x : ℝ) (v : Vec ℝ), IsEigenvector (tensorOf cfg e) (x ^ 2) v →
      IsEigenvector (secondMoments (inEllipsoid cfg e)) ((√M * x) ^ 2) v := by
    intro x v hv i
    have := hv i
    rw [ht, ht, ht] at this
    rw [mul_pow, hsq]
    have h2 : ∀ y : ℝ, y = M * (y / M) := fun y => by field_simp
    rw [h2 (secondMoments _ i 0), h2 (secondMoments _ i 1), h2 (secondMoments _ i 2)]
    linear_combination M * this
  exact ⟨√M * a, √M * b, √M * c, ⟨mul_pos hr hc, mul_le_mul_of_nonneg_left hp.cb hr.le, mul_le_mul_of_nonneg_left hp.ba hr.le, hp.axes,
    hev _ _ hp.major, hev _ _ hp.inter, hev _ _ hp.minor⟩, by rw [hq, mul_div_mul_left _ _ hr.ne'], by rw [hs, mul_div_mul_left _ _ hr.ne']⟩

open Classical in
theorem members_full (cfg : Config) (hell : cfg.deltaD = none) (e : Ellipsoid) (g : Pt → Bool)
    (hg : ∀ p ∈ cfg.pts, (g p = true ↔ ellipsoidal2 e.major e.inter e.minor e.q e.s (rel cfg p) < cfg.d ^ 2)) :
    cfg.pts.filter g = members cfg e := by
  unfold members
  refine List.filter_congr fun p hp => ?_
  have hfull : FullEllipsoid cfg := fun δ h => by rw [hell] at h; cases h
  rw [Bool.eq_iff_iff, hg p hp, decide_eq_true_eq, inside_full hfull]

/-- Closeness of ratios from closeness of their squares. -/
theorem ratio_near {x y f μ : ℝ} (hf : 0 < f) (hx : 0 ≤ x) (hy : f ≤ y) (h : |x ^ 2 - y ^ 2| ≤ μ * f ^ 2) : |x - y| ≤ μ * y := by
  have hy0 : 0 < y := hf.trans_le hy
  have hμ : 0 ≤ μ := by
    by_contra hn
    push Not at hn
    have := mul_neg_of_neg_of_pos hn (pow_pos hf 2)
    linarith [abs_nonneg (x ^ 2 - y ^ 2)]
  have e : x ^ 2 - y ^ 2 = (x - y) * (x + y) := by ring
  rw [e, abs_mul, abs_of_nonneg (add_nonneg hx hy0.le)] at h
  have h1 : |x - y| * y ≤ |x - y| * (x + y) := mul_le_mul_of_nonneg_left (by linarith) (abs_nonneg _)
  have h2 : μ * f ^ 2 ≤ μ * y * y := by
    rw [mul_assoc, ← sq]
    exact mul_le_mul_of_nonneg_left (pow_le_pow_left₀ hf.le hy 2) hμ
  exact le_of_mul_le_mul_right (h1.trans (h.trans h2)) hy0

theorem change_near (hRS : R.u ≤ S.u) (hS : 3 * S.u ≤ 1 / 2) (x y : ℝ) (hy : 0 < y) :
    |R.div |S.rnd (R.sub x y)| y - |x - y| / y| ≤ 6 * S.u * (|x - y| / y) := by
  have h1 : Rel S 2 (S.rnd (R.sub x y)) (x - y) := rel_round ((rel_rnd R (x - y)).coarser hRS)
  have h2 : Rel S 2 |S.rnd (R.sub x y)| |x - y| := by
    obtain ⟨t, e, l, u⟩ := h1
    refine ⟨t, ?_, l, u⟩
    rw [e, abs_mul, abs_of_nonneg ((pow_pos (base_pos S) 2).le.trans l)]
  have h3 : Rel S 3 (R.div |S.rnd (R.sub x y)| y) (|x - y| / y) := by
    have := ((rel_rnd R (|S.rnd (R.sub x y)| / y)).coarser hRS).trans (h2.div (Rel.refl S 0 y))
    exact this
  have h4 := h3.err' (by norm_num; linarith)
  rw [abs_of_nonneg (div_nonneg (abs_nonneg _) hy.le)] at h4
  push_cast at h4
  linarith

theorem settles {v μ t X Y : ℝ} (hv0 : 0 ≤ v) (hμ0 : 0 ≤ μ) (hμ1 : μ ≤ 1 / 10) (ht : t < 1) (h : X + (8 * v + 6 * μ) ≤ t) (hX : 0 ≤ X)
    (hY : Y * (1 - μ) ≤ X + (2 * μ + X * μ)) : (1 + 6 * v) * Y ≤ t := by
  have ht0 : 0 ≤ t := by linarith
  have hX1 : X ≤ 1 := by linarith
  have h1 : (1 + 6 * v) * Y * (1 - μ) ≤ t * (1 - μ) := by
    have h2 : (1 + 6 * v) * (Y * (1 - μ)) ≤ (1 + 6 * v) * (X + (2 * μ + X * μ)) := mul_le_mul_of_nonneg_left hY (by linarith)
    have hX2 : X * μ ≤ μ := mul_le_of_le_one_left hμ0 hX1
    have hX3 : v * X ≤ v := mul_le_of_le_one_right hv0 hX1
    have hX4 : v * (X * μ) ≤ v * μ := mul_le_mul_of_nonneg_left hX2 hv0
    have h6 : t * μ ≤ μ := mul_le_of_le_one_left hμ0 ht.le
    have h7 : v * μ ≤ v * (1 / 10) := mul_le_mul_of_nonneg_left hμ1 hv0
    linarith
  exact le_of_mul_le_mul_right h1 (by linarith)

theorem not_settles {v μ t X Y : ℝ} (hv0 : 0 ≤ v) (hv1 : v ≤ 1 / 100) (hμ0 : 0 ≤ μ) (hμ1 : μ ≤ 1 / 10) (ht0 : 0 ≤ t) (ht : t < 1)
    (h : t + (8 * v + 6 * μ) < X) (hY : X - (2 * μ + X * μ) ≤ Y * (1 + μ)) : t < (1 - 6 * v) * Y := by
  have h1 : t * (1 + μ) < (1 - 6 * v) * Y * (1 + μ) := by
    have h2 : (1 - 6 * v) * (X - (2 * μ + X * μ)) ≤ (1 - 6 * v) * (Y * (1 + μ)) := mul_le_mul_of_nonneg_left hY (by linarith)
    have h3 : (1 - 6 * v) * (1 - μ) * (t + (8 * v + 6 * μ)) < (1 - 6 * v) * (1 - μ) * X :=
      mul_lt_mul_of_pos_left h (mul_pos (by linarith) (by linarith))
    have a1 : t * μ ≤ μ := mul_le_of_le_one_left hμ0 ht.le
    have a2 : v * t ≤ v := mul_le_of_le_one_right hv0 ht.le
    have a3 : v * v ≤ v * (1 / 100) := mul_le_mul_of_nonneg_left hv1 hv0
    have a4 : v * μ ≤ 1 / 100 * μ := mul_le_mul_of_nonneg_right hv1 hμ0
    have a5 : μ * μ ≤ μ * (1 / 10) := mul_le_mul_of_nonneg_left hμ1 hμ0
    have a6 : 0 ≤ v * t * μ := mul_nonneg (mul_nonneg hv0 ht0) hμ0
    have a7 : 0 ≤ v * v * μ := mul_nonneg (mul_nonneg hv0 hv0) hμ0
    have a8 : 0 ≤ v * μ * μ := mul_nonneg (mul_nonneg hv0 hμ0) hμ0
    nlinarith
  exact lt_of_mul_lt_mul_right h1 (by linarith)

/-- How much a computed ratio changes. -/
theorem change_bounds {x y x' y' μ : ℝ} (hy : 0 < y) (hy' : 0 < y') (hμ0 : 0 ≤ μ) (hx : |x' - x| ≤ μ * x) (hyy : |y' - y| ≤ μ * y) (_hx0 : 0 ≤ x) :
    |x' - y'| / y' * (1 - μ) ≤ |x - y| / y + (2 * μ + |x - y| / y * μ) ∧
    |x - y| / y - (2 * μ + |x - y| / y * μ) ≤ |x' - y'| / y' * (1 + μ) := by
  have hxa := abs_le.1 hx
  have hya := abs_le.1 hyy
  set D := |x - y| with hD
  set D' := |x' - y'| with hD'
  have hD0 : 0 ≤ D := abs_nonneg _
  have hD0' : 0 ≤ D' := abs_nonneg _
  have hxy : x ≤ y + D := by linarith [le_abs_self (x - y)]
  have hμx : μ * x ≤ μ * (y + D) := mul_le_mul_of_nonneg_left hxy hμ0
  have k1 : D' ≤ D + μ * x + μ * y := by
    have : x' - y' = (x - y) + (x' - x) - (y' - y) := by ring
    rw [hD', this]
    refine (abs_sub _ _).trans ?_
    have := abs_add_le (x - y) (x' - x)
    linarith
  have k2 : D ≤ D' + μ * x + μ * y := by
    have : x - y = (x' - y') - (x' - x) + (y' - y) := by ring
    rw [hD, this]
    refine (abs_add_le _ _).trans ?_
    have := abs_sub (x' - y') (x' - x)
    linarith
  have e1 : D / y * y = D := div_mul_cancel₀ _ hy.ne'
  have e2 : D' / y' * y' = D' := div_mul_cancel₀ _ hy'.ne'
  have p1 : 0 ≤ D / y := div_nonneg hD0 hy.le
  have p2 : 0 ≤ D' / y' := div_nonneg hD0' hy'.le
  constructor
  · refine le_of_mul_le_mul_right ?_ hy
    have h1 : D' / y' * ((1 - μ) * y) ≤ D' / y' * y' := mul_le_mul_of_nonneg_left (by linarith) p2
    calc D' / y' * (1 - μ) * y = D' / y' * ((1 - μ) * y) := by ring
      _ ≤ D' := by rw [← e2]; rw [e2] at h1 ⊢; linarith
      _ ≤ D + 2 * μ * y + D * μ := by linarith
      _ = (D / y + (2 * μ + D / y * μ)) * y := by linear_combination (-1 - μ) * e1
  · refine le_of_mul_le_mul_right ?_ hy
    have h1 : D' / y' * y' ≤ D' / y' * ((1 + μ) * y) := mul_le_mul_of_nonneg_left (by linarith) p2
    calc (D / y - (2 * μ + D / y * μ)) * y = D - 2 * μ * y - D * μ := by linear_combination (1 - μ) * e1
      _ ≤ D' := by linarith
      _ = D' / y' * y' := e2.symm
      _ ≤ _ := h1
      _ = _ := by ring

/-- The state of the computed iteration goes with the exact ellipsoid. -/
structure Follows (cfg : Config) (μ : ℝ) (st : PState) (e : Ellipsoid) : Prop where
  sel : st.sel.map Prod.fst = members cfg e
  posq : 0 < e.q
  poss : 0 < e.s
  posq' : 0 < st.q
  poss' : 0 < st.s
  q : |st.q - e.q| ≤ μ * e.q
  s : |st.s - e.s| ≤ μ * e.s

/-- One iteration. -/
theorem follow_step {β : ℝ} (hβ0 : 0 ≤ β) (cfg : Config) (hsol : BackwardStable β cfg.solver) (hred : cfg.reduced = false)
    (hell : cfg.deltaD = none) (hm : ∀ p ∈ cfg.pts, 0 < p.m) {f μ bound : ℝ} (hf : 0 < f)
    (hbound : bound = 72 * (cfg.pts.length + 8) * R.u + 15 * β) (hμ : bound = μ * f ^ 2) (hμ1 : μ ≤ 1 / 10)
    {st : PState} {e e' : Ellipsoid} (hst : Follows cfg μ st e) (hax : PrincipalAxes cfg e e') (hflat : f ≤ e'.s) :
    ∃ st', roundedIterate R S cfg st = some st' ∧ st'.iteration = st.iteration + 1 ∧ CloseTo R cfg bound e e' st'.morph ∧
      st'.err = max (R.div |S.rnd (R.sub st'.q st.q)| st.q) (R.div |S.rnd (R.sub st'.s st.s)| st.s) ∧
      0 < e'.q ∧ 0 < e'.s ∧ 0 < st'.q ∧ 0 < st'.s ∧ |st'.q - e'.q| ≤ μ * e'.q ∧ |st'.s - e'.s| ≤ μ * e'.s ∧
      (ClearOfEdge cfg μ e' → st'.sel.map Prod.fst = members cfg e') := by
  obtain ⟨a, b, c, hp, hq', hs'⟩ := principal_members cfg hred hm hax
  have hc := hp.pos
  have hb0 : 0 < b := hc.trans_le hp.cb
  have ha : 0 < a := hb0.trans_le hp.ba
  have hu0 := R.u_nonneg
  have hσ : 0 < c / a := div_pos hc ha
  have hσ1 : c / a ≤ 1 := (div_le_one ha).2 (hp.cb.trans hp.ba)
  have hfσ : f ≤ c / a := by rw [← hs']; exact hflat
  have hf2 : f ^ 2 ≤ (c / a) ^ 2 := pow_le_pow_left₀ hf.le hfσ 2
  have hf1 : f ^ 2 ≤ 1 := pow_le_one₀ hf.le (hfσ.trans hσ1)
  have hn0 : (0 : ℝ) ≤ cfg.pts.length := Nat.cast_nonneg _
  have hnu : 0 ≤ (cfg.pts.length : ℝ) * R.u := by positivity
  have hub : 576 * R.u ≤ bound := by rw [hbound]; linarith
  have hbd0 : 0 ≤ bound := by linarith
  have hf2p : 0 < f ^ 2 := by positivity
  have hμ0 : 0 ≤ μ := by
    by_contra h
    push Not at h
    have := mul_neg_of_neg_of_pos h hf2p
    linarith
  have hbμ : bound ≤ μ * (c / a) ^ 2 := by rw [hμ]; exact mul_le_mul_of_nonneg_left hf2 hμ0
  have hlen : ((inEllipsoid cfg e).pts.length : ℝ) ≤ cfg.pts.length := by
    exact_mod_cast List.length_filter_le _ _
  have hle : 72 * ((inEllipsoid cfg e).pts.length + 8) * R.u + 15 * β ≤ bound := by
    rw [hbound]
    have := mul_le_mul_of_nonneg_right hlen hu0
    linarith
  have hmS : ∀ p ∈ (inEllipsoid cfg e).pts, 0 < p.m := fun p hp' => hm p (List.mem_of_mem_filter hp')
  obtain ⟨q, s, major, inter, minor, E, T', mt, δ, hnew, hq, hs, ⟨hv2, r2⟩, ⟨hv1, r1⟩, ⟨hv0, r0⟩, hF2, hF0, hrq, hrs, hT, hmt, hδ0, hδ, hall⟩ :=
    newShape_full (R := R) S hβ0 (inEllipsoid cfg e) hsol hred hmS hp (by
      have := mul_le_mul_of_nonneg_right hμ1 (sq_nonneg (c / a))
      linarith)
  have hbd1 : bound ≤ 1 / 10 := by
    rw [hμ]
    have := mul_le_mul hμ1 hf1 hf2p.le (by norm_num)
    linarith
  have hF2' : (1 - bound) * a ^ 2 * dot (E.vec 2) (E.vec 2) ≤ form (secondMoments (inEllipsoid cfg e)) (E.vec 2) := by
    refine le_trans ?_ hF2
    have := mul_le_mul_of_nonneg_right hle (mul_nonneg (sq_nonneg a) (dot_self_pos hv2).le)
    linarith
  have hF0' : form (secondMoments (inEllipsoid cfg e)) (E.vec 0) ≤ (c ^ 2 + bound * a ^ 2) * dot (E.vec 0) (E.vec 0) := by
    refine hF0.trans ?_
    have := mul_le_mul_of_nonneg_right hle (mul_nonneg (sq_nonneg a) (dot_self_pos hv0).le)
    linarith
  obtain ⟨x2, x0⟩ := axes_end (inEllipsoid cfg e) hmS hp hub hbd1 hv2 hv0 r2 r0 hF2' hF0'
  -- the radii of the particles
  have hrad := fun p => radius_near cfg hp hT hmt hδ0 hall hμ1 (by linarith) (by linarith) hrq hrs r2 r1 r0 p
  rw [← hq', ← hs'] at hrad
  have hnew' : newShape R S cfg st.sel st.q st.s =
      some (q, s, max (R.div |S.rnd (R.sub q st.q)| st.q) (R.div |S.rnd (R.sub s st.s)| st.s), major, inter, minor) :=
    hnew st.sel st.q st.s hst.sel hst.posq'.ne' hst.poss'.ne'
  set N : Pt → Vec ℝ := fun p => ![along R cfg major p, along R cfg inter p, along R cfg minor p] with hN
  have hsome : ∀ v ∈ cfg.pts.map N, ellNorm2 R q s v = some ((ellNorm2 R q s v).getD 0) := by
    intro v hv
    obtain ⟨p, -, rfl⟩ := List.mem_map.1 hv
    obtain ⟨r, hr, -⟩ := hrad p
    rw [hr]
    rfl
  have m1 := mapM_some (fun v => (ellNorm2 R q s v).map fun x => R.rnd √x) (fun v => R.rnd √((ellNorm2 R q s v).getD 0)) (cfg.pts.map N)
    fun v hv => by rw [hsome v hv]; rfl
  have m2 := mapM_some (fun v => (ellNorm2 R q s v).map fun x => decide (x < R.pow cfg.d 2))
    (fun v => decide ((ellNorm2 R q s v).getD 0 < R.pow cfg.d 2)) (cfg.pts.map N)
    fun v hv => by rw [hsome v hv]; rfl
  have hit : ∃ st', roundedIterate R S cfg st = some st' ∧ st'.q = q ∧ st'.s = s ∧
      st'.err = max (R.div |S.rnd (R.sub q st.q)| st.q) (R.div |S.rnd (R.sub s st.s)| st.s) ∧ st'.iteration = st.iteration + 1 ∧
      st'.morph = ⟨cfg.d, q, s, major, inter, minor⟩ ∧
      st'.sel = select cfg.pts ((cfg.pts.map N).map fun v => R.rnd √((ellNorm2 R q s v).getD 0))
        ((cfg.pts.map N).map fun v => decide ((ellNorm2 R q s v).getD 0 < R.pow cfg.d 2)) := by
    unfold roundedIterate
    rw [hnew']
    simp only [Option.bind_eq_bind, Option.bind_some]
    rw [← hN, m1]
    simp only [Option.bind_some]
    rw [m2]
    exact ⟨_, rfl, rfl, rfl, rfl, rfl, rfl, rfl⟩
  obtain ⟨st', hst', eq, es, ee, ei, em, esel⟩ := hit
  have hq2 : |q ^ 2 - e'.q ^ 2| ≤ bound := by rw [hq']; exact hq.trans hle
  have hs2 : |s ^ 2 - e'.s ^ 2| ≤ bound := by rw [hs']; exact hs.trans hle
  have hE0 : 0 < E.val 0 := by
    by_contra hneg
    push Not at hneg
    have h1 := form_vec hT 0
    have h2 := (abs_le.1 (hall (E.vec 0))).1
    have h3 := (form_le (principal_eigen hp) (E.vec 0)).1
    have h4 : c ^ 2 * dot (E.vec 0) (E.vec 0) ≤ form (secondMoments (inEllipsoid cfg e)) (E.vec 0) := h3
    have hd := dot_self_pos hv0
    have h5 : c ^ 2 / mt * dot (E.vec 0) (E.vec 0) ≤ form (secondMoments (inEllipsoid cfg e)) (E.vec 0) / mt := by
      rw [div_mul_eq_mul_div]
      exact div_le_div_of_nonneg_right h4 hmt.le
    have h6 : E.val 0 * dot (E.vec 0) (E.vec 0) ≤ 0 := mul_nonpos_of_nonpos_of_nonneg hneg hd.le
    have h7 : 12 * δ ≤ μ * (c / a) ^ 2 := by linarith
    have h8 : δ * (a ^ 2 / mt) ≤ 1 / 120 * (c ^ 2 / mt) := by
      have h9 : δ ≤ 1 / 120 * (c / a) ^ 2 := by
        have := mul_le_mul_of_nonneg_right hμ1 (sq_nonneg (c / a))
        linarith
      calc δ * (a ^ 2 / mt) ≤ 1 / 120 * (c / a) ^ 2 * (a ^ 2 / mt) := mul_le_mul_of_nonneg_right h9 (by positivity)
        _ = _ := by field_simp
    have h10 := mul_le_mul_of_nonneg_right h8 hd.le
    have h11 : 0 < c ^ 2 / mt * dot (E.vec 0) (E.vec 0) := by positivity
    rw [h1] at h2
    linarith
  have hE1 := hE0.trans_le hT.ordered.1
  have hE2 := hE1.trans_le hT.ordered.2
  have hq0 := (rootRatio_rel hE1 hE2 hrq).2
  have hs0 := (rootRatio_rel hE0 hE2 hrs).2
  have hu5 : 10 * R.u ≤ 1 / 2 := by linarith
  have hes : 0 < e'.s := hf.trans_le hflat
  have hfq : f ≤ e'.q := by rw [hq']; exact hfσ.trans (div_le_div_of_nonneg_right hp.cb ha.le)
  have heq : 0 < e'.q := hf.trans_le hfq
  have hmaj : momentAlong (inEllipsoid cfg e) e'.major = a ^ 2 := by
    rw [momentAlong_eq]
    have := form_vec (principal_eigen hp) 2
    change form _ e'.major = a ^ 2 * dot e'.major e'.major at this
    rw [this, hp.axes.1, mul_one]
  have hmin : momentAlong (inEllipsoid cfg e) e'.minor = c ^ 2 := by
    rw [momentAlong_eq]
    have := form_vec (principal_eigen hp) 0
    change form _ e'.minor = c ^ 2 * dot e'.minor e'.minor at this
    rw [this, hp.axes.2.2.1, mul_one]
  refine ⟨st', hst', ei, ?_, by rw [ee, eq, es], heq, hes, by rw [eq]; exact hq0, by rw [es]; exact hs0, ?_, ?_, ?_⟩
  · rw [em]
    exact ⟨rfl, hq2, hs2, (unit_near hv2 hu5 r2).2.2.2, (unit_near hv1 hu5 r1).2.2.2, (unit_near hv0 hu5 r0).2.2.2,
      by rw [hmaj]; exact x2, by rw [hmaj, hmin]; exact x0⟩
  · rw [eq]
    exact ratio_near hf hq0.le hfq (by rw [← hμ]; exact hq2)
  · rw [es]
    exact ratio_near hf hs0.le hflat (by rw [← hμ]; exact hs2)
  · intro hclear
    rw [esel, List.map_map (g := fun v => decide _)]
    rw [select_map _ _ _ (by simp)]
    refine members_full cfg hell e' _ fun p hpp => ?_
    obtain ⟨r, hr, h1, h2⟩ := hrad p
    simp only [Function.comp_apply, decide_eq_true_eq]
    have hgr : (ellNorm2 R q s (N p)).getD 0 = r := by rw [hN]; simp only; rw [hr]; rfl
    rw [hgr]
    exact test_clear cfg.d hμ1 (by
      have : bound ≤ μ := by rw [hμ]; exact mul_le_of_le_one_right hμ0 hf1
      linarith) (by unfold ellipsoidal2; positivity) h1 h2 (hclear p hpp)

theorem first_clear (cfg : Config) (hell : cfg.deltaD = none) {μ : ℝ} (hμ1 : μ ≤ 1 / 10) (hu : 576 * R.u ≤ μ) (hclear : ClearOfEdge cfg μ sphere)
    (morph : Morph) : (roundedStart R cfg morph).sel.map Prod.fst = members cfg sphere := by
  unfold roundedStart
  simp only
  rw [select_map _ _ _ (by simp)]
  refine members_full cfg hell sphere _ fun p hp => ?_
  have hu0 := R.u_nonneg
  set Z := dot (rel cfg p) (rel cfg p) with hZ
  have hZ0 : 0 ≤ Z := dot_nonneg' _
  have hE : ellipsoidal2 sphere.major sphere.inter sphere.minor sphere.q sphere.s (rel cfg p) = Z := by
    rw [hZ]
    simp only [ellipsoidal2, sphere, dot]
    simp
    ring
  have hc := hclear p hp
  rw [hE] at hc ⊢
  unfold firstTest
  rw [decide_eq_true_eq]
  have h1 := norm2_rel R fun i => R.sub (cfg.center i) (p.x i)
  have h2 : Rel R 2 (dot (fun i => R.sub (cfg.center i) (p.x i)) (fun i => R.sub (cfg.center i) (p.x i))) Z := by
    have hi : ∀ i, Rel R 2 (R.sub (cfg.center i) (p.x i) * R.sub (cfg.center i) (p.x i)) (rel cfg p i * rel cfg p i) := by
      intro i
      have h := (rel_rnd R (cfg.center i - p.x i)).mul (rel_rnd R (cfg.center i - p.x i))
      have e : (cfg.center i - p.x i) * (cfg.center i - p.x i) = rel cfg p i * rel cfg p i := by unfold rel; ring
      rw [e] at h
      exact h
    have n : ∀ i, 0 ≤ rel cfg p i * rel cfg p i := fun i => mul_self_nonneg _
    exact ((hi 0).add (hi 1) (n 0) (n 1)).add (hi 2) (add_nonneg (n 0) (n 1)) (n 2)
  have h3 := (h1.trans h2).err' (by norm_num; linarith)
  rw [abs_of_nonneg hZ0] at h3
  push_cast at h3
  have h4 := abs_le.1 h3
  have h5 := mul_le_mul_of_nonneg_right hu hZ0
  exact test_clear cfg.d hμ1 hu hZ0 (by linarith) (by linarith) hc

/-- The computed iteration follows a clear path. -/
theorem follows {β : ℝ} (hβ0 : 0 ≤ β) (cfg : Config) (hsol : BackwardStable β cfg.solver) (hred : cfg.reduced = false)
    (hell : cfg.deltaD = none) (hm : ∀ p ∈ cfg.pts, 0 < p.m) (htol0 : 0 ≤ cfg.tol) (htol : cfg.tol < 1) (hRS : R.u ≤ S.u) (hS : S.u ≤ 1 / 100)
    {f μ ε bound : ℝ} (hf : 0 < f) (hf1 : f ≤ 1)
    (hbound : bound = 72 * (cfg.pts.length + 8) * R.u + 15 * β) (hμ : bound = μ * f ^ 2) (hμ1 : μ ≤ 1 / 10) (hε : ε = 8 * S.u + 6 * μ)
    (morph : Morph) {n : Nat} {e : Ellipsoid} (h : ClearPath cfg f μ ε n e) (hn : (n : Int) ≤ cfg.wall) :
    ∃ st, Follows cfg μ st e ∧ st.iteration = n + 1 ∧ st.err > cfg.tol ∧
      ∀ k, loop (roundedStep R S cfg) (n + k) (roundedStart R cfg morph) = loop (roundedStep R S cfg) k st := by
  have hu0 := R.u_nonneg
  have hS0 := S.u_nonneg
  have hf2p : 0 < f ^ 2 := by positivity
  have hf21 : f ^ 2 ≤ 1 := pow_le_one₀ hf.le hf1
  have hn0 : (0 : ℝ) ≤ cfg.pts.length := Nat.cast_nonneg _
  have hnu : 0 ≤ (cfg.pts.length : ℝ) * R.u := by positivity
  have hub : 576 * R.u ≤ bound := by rw [hbound]; linarith
  have hμ0 : 0 ≤ μ := by
    by_contra h
    push Not at h
    have := mul_neg_of_neg_of_pos h hf2p
    linarith
  have hbμ : bound ≤ μ := by rw [hμ]; exact mul_le_of_le_one_right hμ0 hf21
  induction h with
  | sphere clear =>
    refine ⟨roundedStart R cfg morph, ⟨first_clear cfg hell hμ1 (by linarith) clear morph, ?_, ?_, ?_, ?_, ?_, ?_⟩, rfl, htol, fun k => by rw [Nat.zero_add]⟩
    · show (0 : ℝ) < 1; norm_num
    · show (0 : ℝ) < 1; norm_num
    · show (0 : ℝ) < 1; norm_num
    · show (0 : ℝ) < 1; norm_num
    · show |(1 : ℝ) - 1| ≤ μ * 1; rw [sub_self, abs_zero]; linarith
    · show |(1 : ℝ) - 1| ≤ μ * 1; rw [sub_self, abs_zero]; linarith
  | @step n e e' hpath enough axes flat unsettled clear ih =>
    obtain ⟨st, hst, hit, herr, hloop⟩ := ih (by push_cast at hn; omega)
    obtain ⟨st', hiter, hit', -, herr', p1, p2, p3, p4, n1, n2, hsel⟩ :=
      follow_step (R := R) (S := S) hβ0 cfg hsol hred hell hm hf hbound hμ hμ1 hst axes flat
    have hstep : roundedStep R S cfg st = .go st' := by
      unfold roundedStep
      have hlen : st.sel.length = (members cfg e).length := by rw [← hst.sel, List.length_map]
      rw [if_pos herr, if_neg (by rw [hit]; push_cast at hn ⊢; omega), if_neg (by rw [hlen]; omega), hiter]
    refine ⟨st', ⟨hsel clear, p1, p2, p3, p4, n1, n2⟩, by rw [hit', hit], ?_, ?_⟩
    · have gen : ∀ {x y x' y' : ℝ}, 0 < y → 0 < y' → 0 ≤ x → |x' - x| ≤ μ * x → |y' - y| ≤ μ * y → (cfg.tol + ε) * y < |x - y| →
          cfg.tol < R.div |S.rnd (R.sub x' y')| y' := by
        intro x y x' y' hy hy' hx hxx hyy hlt
        have h1 := (change_bounds hy hy' hμ0 hxx hyy hx).2
        have h2 : cfg.tol + (8 * S.u + 6 * μ) < |x - y| / y := by
          rw [lt_div_iff₀ hy, ← hε]
          exact hlt
        have h3 := not_settles hS0 hS hμ0 hμ1 htol0 htol h2 h1
        have h4 := (abs_le.1 (change_near (R := R) (S := S) hRS (by linarith) x' y' hy')).1
        linarith
      rw [herr']
      rcases unsettled with hu | hu
      · exact lt_max_of_lt_left (gen hst.posq hst.posq' p1.le n1 hst.q hu)
      · exact lt_max_of_lt_right (gen hst.poss hst.poss' p2.le n2 hst.s hu)
    · intro k
      rw [show n + 1 + k = n + (k + 1) by omega, hloop, loop, hstep]

theorem PrincipalAxes.with_solver {cfg : Config} (sol : Solver) {e e' : Ellipsoid} (h : PrincipalAxes cfg e e') :
    PrincipalAxes { cfg with solver := sol } e e' := ⟨h.axes, h.lengths⟩

theorem PrincipalAxes.pos {cfg : Config} {e e' : Ellipsoid} (h : PrincipalAxes cfg e e') : 0 < e'.q ∧ 0 < e'.s := by
  obtain ⟨a, b, c, hp, hq, hs⟩ := h.principal
  have hc := hp.pos
  have hb0 : 0 < b := hc.trans_le hp.cb
  have ha : 0 < a := hb0.trans_le hp.ba
  rw [hq, hs]
  exact ⟨div_pos hb0 ha, div_pos hc ha⟩

theorem ClearPath.pos {cfg : Config} {f μ ε : ℝ} {n : Nat} {e : Ellipsoid} (h : ClearPath cfg f μ ε n e) : 0 < e.q ∧ 0 < e.s := by
  cases h with
  | sphere => exact ⟨one_pos, one_pos⟩
  | step _ _ axes _ _ _ => exact PrincipalAxes.pos axes

theorem ClearlyUnsettled.not {cfg : Config} {ε : ℝ} (hε : 0 ≤ ε) {e e' : Ellipsoid} (hq : 0 < e.q) (hs : 0 < e.s)
    (h : ClearlyUnsettled cfg ε e e') : ¬ Settled cfg e e' := by
  rintro ⟨h1, h2⟩
  have h3 := mul_nonneg hε hq.le
  have h4 := mul_nonneg hε hs.le
  rcases h with h | h <;> linarith

theorem ClearlySettled.settled {cfg : Config} {ε : ℝ} (hε : 0 ≤ ε) {e e' : Ellipsoid} (hq : 0 < e.q) (hs : 0 < e.s)
    (h : ClearlySettled cfg ε e e') : Settled cfg e e' := by
  obtain ⟨h1, h2⟩ := h
  have h3 := mul_nonneg hε hq.le
  have h4 := mul_nonneg hε hs.le
  constructor <;> linarith

theorem ClearPath.reached {cfg : Config} {f μ ε : ℝ} (hε : 0 ≤ ε) (sol : Solver) {n : Nat} {e : Ellipsoid} (h : ClearPath cfg f μ ε n e) :
    Reached { cfg with solver := sol } n e := by
  induction h with
  | sphere => exact .sphere
  | @step n e e' hpath enough axes flat unsettled clear ih =>
    exact .step ih enough (PrincipalAxes.with_solver sol axes) (unsettled.not hε hpath.pos.1 hpath.pos.2)

/-- The exact run reports the shape at which the exact iteration settles. -/
theorem exact_reports (cfg : Config) (hfull : FullEllipsoid cfg) (hcen : cfg.reduced = true → ∀ p ∈ cfg.pts, rel cfg p ≠ 0) (morph : Morph) (sc : Scratch) (hf : Fits cfg sc)
    (hsol : GoodSolver cfg.solver) (hm : ∀ p ∈ cfg.pts, 0 < p.m) (htol : cfg.tol < 1) {n : Nat} {e e' : Ellipsoid}
    (hr : Reached cfg n e) (hn : (n : Int) < cfg.wall) (hmin : cfg.itMin ≤ ((members cfg e).length : Int)) (hax : PrincipalAxes cfg e e')
    (hset : Settled cfg e e') (fuel : Nat) (hfuel : cfg.wall.toNat + 1 ≤ fuel) :
    ∃ m sc', runAlgo fuel cfg morph sc = some (some (m, sc')) ∧ m.d = cfg.d ∧ m.q = e'.q ∧ m.s = e'.s ∧
      ∀ v, ellipsoidal2 m.major m.inter m.minor m.q m.s v = ellipsoidal2 e'.major e'.inter e'.minor e'.q e'.s v := by
  have later : ∀ n' e₁, Reached cfg n' e₁ → n' ≤ n := by
    intro n' e₁ hr'
    by_contra hlt
    obtain ⟨e₂, e₃, r1, p1, u1, -⟩ := reached_before hr' n (by omega)
    have hs := reached_unique hfull r1 hr
    exact u1 ((settled_same hs (step_unique hfull hs p1 hax)).2 hset)
  have enough : ∀ n' e₁, Reached cfg n' e₁ → cfg.itMin ≤ ((members cfg e₁).length : Int) := by
    intro n' e₁ hr'
    rcases Nat.lt_or_ge n' n with hlt | hge
    · obtain ⟨e₂, e₃, r1, p1, u1, m1⟩ := reached_before hr n' hlt
      rw [(reached_unique hfull hr' r1).members hfull]
      exact m1
    · obtain rfl : n' = n := le_antisymm (later n' e₁ hr') hge
      rw [(reached_unique hfull hr' hr).members hfull]
      exact hmin
  have axes : ∀ n' e₁, Reached cfg n' e₁ → ∃ e₂, PrincipalAxes cfg e₁ e₂ := by
    intro n' e₁ hr'
    have tr : ∀ {e₂ e₃}, SameSurfaces e₁ e₂ → PrincipalAxes cfg e₂ e₃ → PrincipalAxes cfg e₁ e₃ := by
      intro e₂ e₃ hs hp
      refine ⟨hp.axes, ?_⟩
      rw [hs.tensor hfull]
      exact hp.lengths
    rcases Nat.lt_or_ge n' n with hlt | hge
    · obtain ⟨e₂, e₃, r1, p1, -, -⟩ := reached_before hr n' hlt
      exact ⟨e₃, tr (reached_unique hfull hr' r1) p1⟩
    · obtain rfl : n' = n := le_antisymm (later n' e₁ hr') hge
      exact ⟨e', tr (reached_unique hfull hr' hr) hax⟩
  rcases C105_outcome cfg morph sc hf hsol hm htol fuel hfuel with ⟨m, sc', hrun, hc⟩ | ⟨-, -, hu⟩ | ⟨-, hd⟩
  · obtain ⟨n', e₁, e₂, r1, -, -, p1, st, rfl⟩ := hc
    have hn' := later n' e₁ r1
    rcases Nat.lt_or_ge n' n with hlt | hge
    · exfalso
      obtain ⟨e₃, e₄, r3, p3, u3, -⟩ := reached_before hr n' hlt
      have hs := reached_unique hfull r1 r3
      exact u3 ((settled_same hs (step_unique hfull hs p1 p3)).1 st)
    · obtain rfl : n' = n := le_antisymm hn' hge
      have hs := step_unique hfull (reached_unique hfull r1 hr) p1 hax
      exact ⟨_, sc', hrun, rfl, hs.q, hs.s, hs.surf⟩
  · exfalso
    obtain ⟨n', e₁, r1, hbad⟩ := hu
    have := later n' e₁ r1
    have := enough n' e₁ r1
    omega
  · exfalso
    obtain ⟨n', e₁, r1, -, -, hbad⟩ := hd
    rcases hbad with ⟨v, hv, hplane⟩ | ⟨hr', p, hp, h0⟩ | ⟨δ, -, hδ, hd, -⟩
    · obtain ⟨e₂, p⟩ := axes n' e₁ r1
      exact not_planar p v hv hplane
    · exact hcen hr' p (List.mem_of_mem_filter hp) h0
    · exact hd (hfull δ hδ)

/-- The exact run reports a gap if the exact iteration comes to too few particles or to the limit of iterations. -/
theorem exact_gap (cfg : Config) (hfull : FullEllipsoid cfg) (hcen : cfg.reduced = true → ∀ p ∈ cfg.pts, rel cfg p ≠ 0) (morph : Morph) (sc : Scratch) (hf : Fits cfg sc)
    (hsol : GoodSolver cfg.solver) (hm : ∀ p ∈ cfg.pts, 0 < p.m) (htol : cfg.tol < 1) {n : Nat} {e : Ellipsoid}
    (hr : Reached cfg n e) (hgap : cfg.wall ≤ (n : Int) ∨ ((members cfg e).length : Int) < cfg.itMin)
    (fuel : Nat) (hfuel : cfg.wall.toNat + 1 ≤ fuel) : ∃ sc', runAlgo fuel cfg morph sc = some (some (.zero, sc')) := by
  -- an iteration from which the run goes on comes before
  have before : ∀ n' e₁, Reached cfg n' e₁ → (n' : Int) < cfg.wall → cfg.itMin ≤ ((members cfg e₁).length : Int) → n' < n := by
    intro n' e₁ hr' hn' hmin'
    by_contra hge
    push Not at hge
    rcases hgap with hw | hfew
    · omega
    · rcases hge.eq_or_lt with rfl | hlt
      · rw [(reached_unique hfull hr' hr).members hfull] at hmin'
        omega
      · obtain ⟨e₂, e₃, r2, -, -, m2⟩ := reached_before hr' n hlt
        rw [(reached_unique hfull r2 hr).members hfull] at m2
        omega
  rcases C105_outcome cfg morph sc hf hsol hm htol fuel hfuel with ⟨m, sc', hrun, hc⟩ | ⟨sc', hrun, -⟩ | ⟨-, hd⟩
  · exfalso
    obtain ⟨n', e₁, e₂, r1, hn', hmin', p1, st, rfl⟩ := hc
    obtain ⟨e₃, e₄, r3, p3, u3, -⟩ := reached_before hr n' (before n' e₁ r1 hn' hmin')
    have hs := reached_unique hfull r1 r3
    exact u3 ((settled_same hs (step_unique hfull hs p1 p3)).1 st)
  · exact ⟨sc', hrun⟩
  · exfalso
    obtain ⟨n', e₁, r1, hn', hmin', hbad⟩ := hd
    obtain ⟨e₃, e₄, r3, p3, u3, -⟩ := reached_before hr n' (before n' e₁ r1 hn' hmin')
    rcases hbad with ⟨v, hv, hplane⟩ | ⟨hr', p, hp, h0⟩ | ⟨δ, -, hδ, hd, -⟩
    · rw [(reached_unique hfull r1 r3).members hfull] at hplane
      exact not_planar p3 v hv hplane
    · exact hcen hr' p (List.mem_of_mem_filter hp) h0
    · exact hd (hfull δ hδ)

/-- C177. The exact iteration comes to `e` by a clear path and then clearly settles at `e'`. The computed shape is as close to it as if the
particles in the last ellipsoid had been known: rounding errors do not accumulate over the iterations. The run with exact arithmetic (and an exact
solver) reports the ratios of `e'`. -/
theorem C177_local (R S : Rounding) (hRS : R.u ≤ S.u) (hS : S.u ≤ 1 / 100) (β : ℝ) (hβ0 : 0 ≤ β) (cfg : Config)
    (hsol : BackwardStable β cfg.solver) (hred : cfg.reduced = false) (hell : cfg.deltaD = none) (hm : ∀ p ∈ cfg.pts, 0 < p.m)
    (htol0 : 0 ≤ cfg.tol) (htol : cfg.tol < 1)
    (bound : ℝ) (hbound : bound = 72 * (cfg.pts.length + 8) * R.u + 15 * β) (f : ℝ) (hf : 0 < f) (hb : bound ≤ f ^ 2 / 10)
    (μ ε : ℝ) (hμ : μ = bound / f ^ 2) (hε : ε = 8 * S.u + 6 * μ)
    (n : Nat) (e e' : Ellipsoid) (hpath : ClearPath cfg f μ ε n e) (hn : (n : Int) < cfg.wall)
    (hmin : cfg.itMin ≤ ((members cfg e).length : Int)) (hax : PrincipalAxes cfg e e') (hflat : f ≤ e'.s) (hset : ClearlySettled cfg ε e e')
    (morph : Morph) (fuel : Nat) (hfuel : n + 2 ≤ fuel) :
    ∃ m, roundedRun R S fuel cfg morph = some (some m) ∧ CloseTo R cfg bound e e' m ∧
      ∀ (sol : Solver), GoodSolver sol → ∀ (sc : Scratch), Fits cfg sc → ∀ fuel', cfg.wall.toNat + 1 ≤ fuel' →
        ∃ m' sc', runAlgo fuel' { cfg with solver := sol } morph sc = some (some (m', sc')) ∧ m'.d = cfg.d ∧ m'.q = e'.q ∧ m'.s = e'.s := by
  have hS0 := S.u_nonneg
  have hf2p : 0 < f ^ 2 := by positivity
  have hμb : bound = μ * f ^ 2 := by rw [hμ, div_mul_cancel₀ _ hf2p.ne']
  have hμ1 : μ ≤ 1 / 10 := by rw [hμ, div_le_iff₀ hf2p]; linarith
  have hf1 : f ≤ 1 := by
    obtain ⟨a, b, c, hp, -, hs⟩ := hax.principal
    have ha : 0 < a := (hp.pos.trans_le hp.cb).trans_le hp.ba
    refine hflat.trans ?_
    rw [hs]
    exact (div_le_one ha).2 (hp.cb.trans hp.ba)
  have hμ0 : 0 ≤ μ := by
    rw [hμ, hbound]
    have := R.u_nonneg
    positivity
  obtain ⟨st, hst, hit, herr, hloop⟩ := follows (R := R) (S := S) hβ0 cfg hsol hred hell hm htol0 htol hRS hS hf hf1 hbound hμb hμ1 hε morph hpath hn.le
  obtain ⟨st', hiter, -, hclose, herr', p1, p2, p3, p4, n1, n2, -⟩ :=
    follow_step (R := R) (S := S) hβ0 cfg hsol hred hell hm hf hbound hμb hμ1 hst hax hflat
  have hstep : roundedStep R S cfg st = .go st' := by
    unfold roundedStep
    have hlen : st.sel.length = (members cfg e).length := by rw [← hst.sel, List.length_map]
    rw [if_pos herr, if_neg (by rw [hit]; push_cast; omega), if_neg (by rw [hlen]; omega), hiter]
  have hle : ¬ st'.err > cfg.tol := by
    have gen : ∀ {x y x' y' : ℝ}, 0 < y → 0 < y' → 0 ≤ x → |x' - x| ≤ μ * x → |y' - y| ≤ μ * y → |x - y| ≤ (cfg.tol - ε) * y →
        R.div |S.rnd (R.sub x' y')| y' ≤ cfg.tol := by
      intro x y x' y' hy hy' hx hxx hyy hlt
      have h1 := (change_bounds hy hy' hμ0 hxx hyy hx).1
      have h2 : |x - y| / y + (8 * S.u + 6 * μ) ≤ cfg.tol := by
        have : |x - y| / y ≤ cfg.tol - ε := by rw [div_le_iff₀ hy]; exact hlt
        linarith
      have h3 := settles hS0 hμ0 hμ1 htol h2 (div_nonneg (abs_nonneg _) hy.le) h1
      have h4 := (abs_le.1 (change_near (R := R) (S := S) hRS (by linarith) x' y' hy')).2
      linarith
    rw [herr', gt_iff_lt, not_lt]
    exact max_le (gen hst.posq hst.posq' p1.le n1 hst.q hset.1) (gen hst.poss hst.poss' p2.le n2 hst.s hset.2)
  have hstop : roundedStep R S cfg st' = .stop (some st'.morph) := by
    unfold roundedStep
    rw [if_neg hle]
  refine ⟨st'.morph, ?_, hclose, ?_⟩
  · obtain ⟨k, rfl⟩ : ∃ k, fuel = n + (k + 2) := ⟨fuel - (n + 2), by omega⟩
    unfold roundedRun
    rw [hloop, loop, hstep]
    simp only
    rw [loop, hstop]
  · intro sol hgood sc hfit fuel' hfuel'
    have hfull : FullEllipsoid { cfg with solver := sol } := fun δ h => by
      change cfg.deltaD = some δ at h
      rw [hell] at h
      cases h
    have hε0 : 0 ≤ ε := by rw [hε]; linarith
    obtain ⟨m', sc', h1, h2, h3, h4, -⟩ := exact_reports { cfg with solver := sol } hfull (fun h => by rw [hred] at h; cases h) morph sc hfit hgood hm htol (hpath.reached hε0 sol) hn hmin
      (PrincipalAxes.with_solver sol hax) (hset.settled hε0 hpath.pos.1 hpath.pos.2) fuel' hfuel'
    exact ⟨m', sc', h1, h2, h3, h4⟩

/-- C177. If the clear path comes to an ellipsoid with fewer than `IT_MIN` particles, or to the limit of iterations, the computed run reports
a gap, as the run with exact arithmetic does. -/
theorem C177_gap (R S : Rounding) (hRS : R.u ≤ S.u) (hS : S.u ≤ 1 / 100) (β : ℝ) (hβ0 : 0 ≤ β) (cfg : Config)
    (hsol : BackwardStable β cfg.solver) (hred : cfg.reduced = false) (hell : cfg.deltaD = none) (hm : ∀ p ∈ cfg.pts, 0 < p.m)
    (htol0 : 0 ≤ cfg.tol) (htol : cfg.tol < 1)
    (bound : ℝ) (hbound : bound = 72 * (cfg.pts.length + 8) * R.u + 15 * β) (f : ℝ) (hf : 0 < f) (hf1 : f ≤ 1) (hb : bound ≤ f ^ 2 / 10)
    (μ ε : ℝ) (hμ : μ = bound / f ^ 2) (hε : ε = 8 * S.u + 6 * μ)
    (n : Nat) (e : Ellipsoid) (hpath : ClearPath cfg f μ ε n e) (hn : (n : Int) ≤ cfg.wall)
    (hgap : (n : Int) = cfg.wall ∨ ((members cfg e).length : Int) < cfg.itMin)
    (morph : Morph) (fuel : Nat) (hfuel : n + 1 ≤ fuel) :
    roundedRun R S fuel cfg morph = some (some .zero) ∧
      ∀ (sol : Solver), GoodSolver sol → ∀ (sc : Scratch), Fits cfg sc → ∀ fuel', cfg.wall.toNat + 1 ≤ fuel' →
        ∃ sc', runAlgo fuel' { cfg with solver := sol } morph sc = some (some (.zero, sc')) := by
  have hS0 := S.u_nonneg
  have hf2p : 0 < f ^ 2 := by positivity
  have hμb : bound = μ * f ^ 2 := by rw [hμ, div_mul_cancel₀ _ hf2p.ne']
  have hμ1 : μ ≤ 1 / 10 := by rw [hμ, div_le_iff₀ hf2p]; linarith
  have hμ0 : 0 ≤ μ := by
    rw [hμ, hbound]
    have := R.u_nonneg
    positivity
  obtain ⟨st, hst, hit, herr, hloop⟩ := follows (R := R) (S := S) hβ0 cfg hsol hred hell hm htol0 htol hRS hS hf hf1 hbound hμb hμ1 hε morph hpath hn
  have hlen : st.sel.length = (members cfg e).length := by rw [← hst.sel, List.length_map]
  have hstop : roundedStep R S cfg st = .stop (some .zero) := by
    unfold roundedStep
    rw [if_pos herr]
    by_cases hw : (st.iteration : Int) > cfg.wall
    · rw [if_pos hw]
    · rw [if_neg hw, if_pos]
      rw [hit] at hw
      push_cast at hw
      rw [hlen]
      omega
  constructor
  · obtain ⟨k, rfl⟩ : ∃ k, fuel = n + (k + 1) := ⟨fuel - (n + 1), by omega⟩
    unfold roundedRun
    rw [hloop, loop, hstop]
  · intro sol hgood sc hfit fuel' hfuel'
    have hfull : FullEllipsoid { cfg with solver := sol } := fun δ h => by
      change cfg.deltaD = some δ at h
      rw [hell] at h
      cases h
    have hε0 : 0 ≤ ε := by rw [hε]; linarith
    exact exact_gap { cfg with solver := sol } hfull (fun h => by rw [hred] at h; cases h) morph sc hfit hgood hm htol (hpath.reached hε0 sol) (hgap.imp_left fun h => h.ge) fuel' hfuel'

end

/-- Six particles on the axes at distances 3, 2, 1, and two far away, in an ellipsoid of size 10. -/
noncomputable def farCfg (sol : Solver) (itMin : Int) : Config :=
  { axisCfg sol with pts := (axisCfg sol).pts ++ [⟨![50, 0, 0], ![50, 0, 0], 1⟩, ⟨![0, -40, 0], ![0, -40, 0], 1⟩], d := 10, itMin := itMin }

/-- Their exact shape. -/
noncomputable def farShape : Ellipsoid := ⟨![1, 0, 0], ![0, 1, 0], ![0, 0, 1], 2 / 3, 1 / 3⟩

theorem far_rel (sol : Solver) (k : Int) (v w : Vec ℝ) (m : ℝ) : rel (farCfg sol k) ⟨v, w, m⟩ = v := by
  funext i
  show v i - (0 : Vec ℝ) i = v i
  simp

theorem far_radii (sol : Solver) (k : Int) {e : Ellipsoid} (he : e = sphere ∨ e = farShape) :
    (∀ p ∈ (axisCfg sol).pts, ellipsoidal2 e.major e.inter e.minor e.q e.s (rel (farCfg sol k) p) ≤ 9) ∧
    ∀ p ∈ [(⟨![50, 0, 0], ![50, 0, 0], 1⟩ : Pt), ⟨![0, -40, 0], ![0, -40, 0], 1⟩],
      1600 ≤ ellipsoidal2 e.major e.inter e.minor e.q e.s (rel (farCfg sol k) p) := by
  constructor
  · intro p hp
    simp only [axisCfg, List.mem_cons, List.not_mem_nil, or_false] at hp
    rcases he with rfl | rfl <;> rcases hp with rfl | rfl | rfl | rfl | rfl | rfl <;> rw [far_rel] <;>
      simp [ellipsoidal2, sphere, farShape, dot] <;> norm_num
  · intro p hp
    simp only [List.mem_cons, List.not_mem_nil, or_false] at hp
    rcases he with rfl | rfl <;> rcases hp with rfl | rfl <;> rw [far_rel] <;> simp [ellipsoidal2, sphere, farShape, dot] <;> norm_num

theorem far_members (sol : Solver) (k : Int) {e : Ellipsoid} (he : e = sphere ∨ e = farShape) :
    members (farCfg sol k) e = (axisCfg sol).pts := by
  classical
  obtain ⟨h1, h2⟩ := far_radii sol k he
  have hfull : FullEllipsoid (farCfg sol k) := fun δ h => by cases h
  have hd : (farCfg sol k).d ^ 2 = 100 := by show (10 : ℝ) ^ 2 = 100; norm_num
  unfold members
  show List.filter _ ((axisCfg sol).pts ++ _) = _
  rw [List.filter_append, List.filter_eq_self.2, List.filter_eq_nil_iff.2, List.append_nil]
  · intro p hp
    rw [decide_eq_true_eq, inside_full hfull, hd]
    have := h2 p hp
    linarith
  · intro p hp
    rw [decide_eq_true_eq, inside_full hfull, hd]
    have := h1 p hp
    linarith

theorem far_clear (sol : Solver) (k : Int) {e : Ellipsoid} (he : e = sphere ∨ e = farShape) {μ : ℝ} (h0 : 0 ≤ μ) (h1 : μ ≤ 1 / 10) :
    ClearOfEdge (farCfg sol k) μ e := by
  obtain ⟨r1, r2⟩ := far_radii sol k he
  have hd : (farCfg sol k).d ^ 2 = 100 := by show (10 : ℝ) ^ 2 = 100; norm_num
  intro p hp
  rw [hd]
  rcases List.mem_append.1 hp with hp | hp
  · have := r1 p hp
    exact .inl (by linarith)
  · have := r2 p hp
    exact .inr (by linarith)

theorem far_axes (sol : Solver) (k : Int) {e : Ellipsoid} (he : e = sphere ∨ e = farShape) : PrincipalAxes (farCfg sol k) e farShape := by
  have h3 : 0 < √(1 / 3 : ℝ) := by positivity
  have hsq : √(1 / 3 : ℝ) ^ 2 = 1 / 3 := Real.sq_sqrt (by norm_num)
  refine ⟨unit_axes, 3 * √(1 / 3), 2 * √(1 / 3), √(1 / 3), h3, by linarith, by linarith, ?_, ?_, ?_, ?_, ?_⟩
  · show (2 / 3 : ℝ) = _
    field_simp
  · show (1 / 3 : ℝ) = _
    field_simp
  all_goals
    intro i
    unfold tensorOf massTensor
    rw [far_members sol k he]
    fin_cases i <;> simp [farCfg, axisCfg, farShape, mul_pow, hsq] <;> norm_num

/-- The hypotheses of `C177_local` are met in double precision: the two far particles are left out, the ratios 2/3 and 1/3 are found to
twelve digits, as with exact arithmetic. -/
example (sol : Solver) (hsol : GoodSolver sol) (morph : Morph) (fuel : Nat) (hfuel : 3 ≤ fuel) :
    ∃ m, roundedRun float64 float32 fuel (farCfg sol 6) morph = some (some m) ∧ |m.q ^ 2 - 4 / 9| ≤ 1 / 10 ^ 12 ∧ |m.s ^ 2 - 1 / 9| ≤ 1 / 10 ^ 12 := by
  have u64 : float64.u = (1 / 2) ^ 53 := rfl
  have u32 : float32.u = (1 / 2) ^ 24 := rfl
  have hlen : (farCfg sol 6).pts.length = 8 := rfl
  set bound : ℝ := 72 * ((farCfg sol 6).pts.length + 8) * float64.u + 15 * 0 with hb
  have hbv : bound = 72 * 16 * (1 / 2) ^ 53 := by rw [hb, hlen, u64]; norm_num
  have hm8 : ((members (farCfg sol 6) farShape).length : Int) = 6 := by rw [far_members sol 6 (.inr rfl)]; rfl
  have hm8' : ((members (farCfg sol 6) sphere).length : Int) = 6 := by rw [far_members sol 6 (.inl rfl)]; rfl
  have hμ0 : 0 ≤ bound / (1 / 3) ^ 2 := by rw [hbv]; positivity
  have hμ1 : bound / (1 / 3) ^ 2 ≤ 1 / 10 ^ 9 := by rw [hbv]; norm_num
  set μ := bound / (1 / 3) ^ 2 with hμ
  set ε := 8 * float32.u + 6 * μ with hε
  have hε1 : ε ≤ 1 / 10 ^ 6 := by rw [hε, u32]; norm_num; linarith
  have hpath : ClearPath (farCfg sol 6) (1 / 3) μ ε 1 farShape := by
    refine .step (.sphere (far_clear sol 6 (.inl rfl) hμ0 (by linarith))) (by rw [hm8']; show (6 : Int) ≤ 6; norm_num) (far_axes sol 6 (.inl rfl)) (le_refl _) ?_
      (far_clear sol 6 (.inr rfl) hμ0 (by linarith))
    left
    show (1 / 100 + ε) * 1 < |(2 / 3 : ℝ) - 1|
    rw [abs_of_neg (by norm_num)]
    linarith
  obtain ⟨m, hrun, hc, -⟩ := C177_local float64 float32 (by rw [u64, u32]; norm_num) (by rw [u32]; norm_num) 0 le_rfl (farCfg sol 6) (GoodSolver.stable hsol) rfl rfl
    (by intro p hp; simp only [farCfg, axisCfg, List.cons_append, List.nil_append, List.mem_cons, List.not_mem_nil, or_false] at hp
        rcases hp with rfl | rfl | rfl | rfl | rfl | rfl | rfl | rfl <;> exact one_pos)
    (by show (0 : ℝ) ≤ 1 / 100; norm_num) (by show (1 / 100 : ℝ) < 1; norm_num) bound hb (1 / 3) (by norm_num) (by rw [hbv]; norm_num) μ ε hμ hε
    1 farShape farShape hpath (by show ((1 : Nat) : Int) < 100; norm_num) (by rw [hm8]; show (6 : Int) ≤ 6; norm_num) (far_axes sol 6 (.inr rfl)) (le_refl _)
    (by
      constructor
      · rw [sub_self, abs_zero]
        show 0 ≤ ((1 / 100 : ℝ) - ε) * (2 / 3)
        linarith
      · rw [sub_self, abs_zero]
        show 0 ≤ ((1 / 100 : ℝ) - ε) * (1 / 3)
        linarith) morph fuel (by omega)
  have hb12 : bound ≤ 1 / 10 ^ 12 := by rw [hbv]; norm_num
  have hq := hc.q
  have hs := hc.s
  change |m.q ^ 2 - (2 / 3) ^ 2| ≤ _ at hq
  change |m.s ^ 2 - (1 / 3) ^ 2| ≤ _ at hs
  rw [show (2 / 3 : ℝ) ^ 2 = 4 / 9 by norm_num] at hq
  rw [show (1 / 3 : ℝ) ^ 2 = 1 / 9 by norm_num] at hs
  exact ⟨m, hrun, hq.trans hb12, hs.trans hb12⟩

/-- The hypotheses of `C177_gap` are met: with `IT_MIN = 7` the six particles are too few. -/
example (sol : Solver) (hsol : GoodSolver sol) (morph : Morph) (fuel : Nat) (hfuel : 1 ≤ fuel) :
    roundedRun float64 float32 fuel (farCfg sol 7) morph = some (some .zero) := by
  have u64 : float64.u = (1 / 2) ^ 53 := rfl
  have u32 : float32.u = (1 / 2) ^ 24 := rfl
  have hlen : (farCfg sol 7).pts.length = 8 := rfl
  set bound : ℝ := 72 * ((farCfg sol 7).pts.length + 8) * float64.u + 15 * 0 with hb
  have hbv : bound = 72 * 16 * (1 / 2) ^ 53 := by rw [hb, hlen, u64]; norm_num
  have hμ0 : 0 ≤ bound / 1 ^ 2 := by rw [hbv]; positivity
  have hμ1 : bound / 1 ^ 2 ≤ 1 / 10 := by rw [hbv]; norm_num
  refine (C177_gap float64 float32 (by rw [u64, u32]; norm_num) (by rw [u32]; norm_num) 0 le_rfl (farCfg sol 7) (GoodSolver.stable hsol) rfl rfl
    (by intro p hp; simp only [farCfg, axisCfg, List.cons_append, List.nil_append, List.mem_cons, List.not_mem_nil, or_false] at hp
        rcases hp with rfl | rfl | rfl | rfl | rfl | rfl | rfl | rfl <;> exact one_pos)
    (by show (0 : ℝ) ≤ 1 / 100; norm_num) (by show (1 / 100 : ℝ) < 1; norm_num) bound hb 1 one_pos le_rfl (by rw [hbv]; norm_num) _ _ rfl rfl
    0 sphere (.sphere (far_clear sol 7 (.inl rfl) hμ0 hμ1)) (by show ((0 : Nat) : Int) ≤ 100; norm_num) (.inr ?_) morph fuel (by omega)).1
  rw [far_members sol 7 (.inl rfl)]
  show (6 : Int) < 7
  norm_num

end Verif.Round
