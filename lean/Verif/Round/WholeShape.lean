import Verif.Round.Ratios
import Verif.Shapes.Whole

/-!
# The iteration with rounding, for objects contained as a whole (C170)

The ellipsoid-based iterations (`runEllAlgo`, shape_profs_algos.pyx:148-262, and `runEllVDispAlgo`, 265-383) with every operation
rounded.
-/

namespace Verif.Round

open Verif.Shapes
open Verif (Vec Particle)

/-! ## Model -/

/-- `x**2+y**2+z**2`, shape_profs_algos.pyx:207, 230-232. -/
noncomputable def norm2 (R : Rounding) (v : Vec ℝ) : ℝ := R.add (R.add (R.pow (v 0) 2) (R.pow (v 1) 2)) (R.pow (v 2) 2)

/-- Test of a particle before the first iteration, shape_profs_algos.pyx:207. -/
noncomputable def firstTest (R : Rounding) (cfg : Config) (p : Pt) : Bool :=
  decide (norm2 R (fun i => R.sub (cfg.center i) (p.x i)) < R.pow cfg.d 2)

/-- `x**2+y**2/q_new**2+z**2/s_new**2`, shape_profs_algos.pyx:212, 251, 256; `none` is a ZeroDivisionError. -/
noncomputable def ellNorm2 (R : Rounding) (q s : ℝ) (y : Vec ℝ) : Option ℝ :=
  if R.pow q 2 = 0 then none else if R.pow s 2 = 0 then none else
    some (R.add (R.add (R.pow (y 0) 2) (R.div (R.pow (y 1) 2) (R.pow q 2))) (R.div (R.pow (y 2) 2) (R.pow s 2)))

/-- `eigvec[:,k].real/vec_norm`, shape_profs_algos.pyx:230-245. -/
noncomputable def unitised (R : Rounding) (v : Vec ℝ) : Option (Vec ℝ) :=
  let n := R.rnd √(norm2 R v)
  if n = 0 then none else some fun i => R.div (v i) n

/-- A coordinate in the principal frame, shape_profs_algos.pyx:248-250. -/
noncomputable def along (R : Rounding) (cfg : Config) (axis : Vec ℝ) (p : Pt) : ℝ :=
  R.add (R.add (R.mul (axis 0) (R.sub (p.x 0) (cfg.center 0))) (R.mul (axis 1) (R.sub (p.x 1) (cfg.center 1))))
    (R.mul (axis 2) (R.sub (p.x 2) (cfg.center 2)))

/-- `cython_abs(x_new - x_old)/x_old`, shape_profs_algos.pyx:229; the absolute value is taken in single precision, helper_class.pyx:110. -/
noncomputable def change (R S : Rounding) (new old : ℝ) : Option ℝ := if old = 0 then none else some (R.div |S.rnd (R.sub new old)| old)

/-- What enters the tensor of a selected particle. -/
def entering (sel : Sel) : List (Particle ℝ × ℝ) := sel.map fun pr => (⟨pr.1.src, pr.1.m⟩, pr.2)

/-- Axis ratios, their change and the axes, shape_profs_algos.pyx:221-245: `(q, s, err, major, inter, minor)`. Simplified: NaN
(the root of a negative number) is treated as an exception. -/
noncomputable def newShape (R S : Rounding) (cfg : Config) (sel : Sel) (q s : ℝ) : Option (ℝ × ℝ × ℝ × Vec ℝ × Vec ℝ × Vec ℝ) := do
  let e := cfg.solver (roundedTensor R S cfg.reduced cfg.srcCenter (entering sel))
  let qn ← rootRatio R (e.val 1) (e.val 2)
  let sn ← rootRatio R (e.val 0) (e.val 2)
  let eq ← change R S qn q
  let es ← change R S sn s
  let major ← unitised R (e.vec 2)
  let inter ← unitised R (e.vec 1)
  let minor ← unitised R (e.vec 0)
  some (qn, sn, max eq es, major, inter, minor)

/-- One iteration, shape_profs_algos.pyx:221-261. -/
noncomputable def roundedIterate (R S : Rounding) (cfg : Config) (st : PState) : Option PState := do
  let (qn, sn, err, major, inter, minor) ← newShape R S cfg st.sel st.q st.s
  let princ := cfg.pts.map fun p => ![along R cfg major p, along R cfg inter p, along R cfg minor p]
  let rs ← princ.mapM fun y => (ellNorm2 R qn sn y).map fun x => R.rnd √x
  let tests ← princ.mapM fun y => (ellNorm2 R qn sn y).map fun x => decide (x < R.pow cfg.d 2)
  some { q := qn, s := sn, err := err, iteration := st.iteration + 1
         sel := select cfg.pts rs tests
         morph := ⟨cfg.d, qn, sn, major, inter, minor⟩ }

/-- One evaluation of the condition of the loop and its body, shape_profs_algos.pyx:213-261. -/
noncomputable def roundedStep (R S : Rounding) (cfg : Config) (st : PState) : Next (Option Morph) PState :=
  if st.err > cfg.tol then
    if (st.iteration : Int) > cfg.wall then .stop (some .zero)
    else if (st.sel.length : Int) < cfg.itMin then .stop (some .zero)
    else match roundedIterate R S cfg st with
      | none => .stop none
      | some st' => .go st'
  else .stop (some st.morph)

/-- State before the loop, shape_profs_algos.pyx:190-212. -/
noncomputable def roundedStart (R : Rounding) (cfg : Config) (morph : Morph) : PState :=
  { q := 1, s := 1, err := 1, iteration := 1
    sel := select cfg.pts
      (cfg.pts.map fun p => ((ellNorm2 R 1 1 fun i => R.sub (cfg.center i) (p.x i)).map fun x => R.rnd √x).getD 0)
      (cfg.pts.map (firstTest R cfg))
    morph := morph }

/-- `runEllAlgo` and `runEllVDispAlgo`, shape_profs_algos.pyx:148-383, every operation rounded by `R`, the total mass by `S`. Outer `none` =
not finished after `fuel` evaluations of the condition of the loop, inner `none` = exception or NaN. -/
noncomputable def roundedRun (R S : Rounding) (fuel : Nat) (cfg : Config) (morph : Morph) : Option (Option Morph) :=
  loop (roundedStep R S cfg) fuel (roundedStart R cfg morph)

/-! ## Specification -/

/-- Second moments of the vectors entering the tensor (positions or velocities) about the given centre, weighted with the masses. -/
noncomputable def secondMoments (cfg : Config) (i j : Fin 3) : ℝ :=
  (cfg.pts.map fun p => p.m * (p.src i - cfg.srcCenter i) * (p.src j - cfg.srcCenter j)).sum

/-- Mean square of these vectors along a direction, up to a factor. -/
noncomputable def momentAlong (cfg : Config) (v : Vec ℝ) : ℝ :=
  (cfg.pts.map fun p => p.m * (dot v fun i => p.src i - cfg.srcCenter i) ^ 2).sum

/-! ## Proof -/

section

variable {R : Rounding}

/-- Shorthand. -/
noncomputable abbrev w (R : Rounding) : ℝ := (1 - R.u)⁻¹

theorem w_pos (R : Rounding) : 0 < w R := inv_pos.2 (base_pos R)

theorem abs_rnd_le (R : Rounding) (x : ℝ) : |R.rnd x| ≤ w R * |x| := by
  obtain ⟨t, e, h1, h2⟩ := rel_rnd R x
  rw [pow_one] at h1 h2
  rw [e, abs_mul, mul_comm, abs_of_nonneg ((base_pos R).le.trans h1)]
  exact mul_le_mul_of_nonneg_right h2 (abs_nonneg x)

theorem Rel.abs_le {k : Nat} {y x : ℝ} (h : Rel R k y x) : |y| ≤ w R ^ k * |x| := by
  obtain ⟨t, e, h1, h2⟩ := h
  rw [e, abs_mul, mul_comm, abs_of_nonneg ((pow_pos (base_pos R) k).le.trans h1)]
  exact mul_le_mul_of_nonneg_right h2 (abs_nonneg x)

theorem Rel.le {k : Nat} {y x : ℝ} (h : Rel R k y x) (hx : 0 ≤ x) : y ≤ w R ^ k * x := by
  have := h.abs_le
  rw [abs_of_nonneg hx] at this
  exact (le_abs_self y).trans this

theorem Rel.ge {k : Nat} {y x : ℝ} (h : Rel R k y x) (hx : 0 ≤ x) : x ≤ w R ^ k * y := by
  obtain ⟨t, rfl, h1, -⟩ := h
  have h2 : w R ^ k * (1 - R.u) ^ k = 1 := by
    rw [← mul_pow, inv_mul_cancel₀ (base_pos R).ne', one_pow]
  have h3 := mul_le_mul_of_nonneg_left h1 (mul_nonneg (pow_pos (w_pos R) k).le hx)
  calc x = w R ^ k * x * (1 - R.u) ^ k := by linear_combination -x * h2
    _ ≤ w R ^ k * x * t := h3
    _ = _ := by ring

theorem Rel.add {k : Nat} {y x y' x' : ℝ} (h : Rel R k y x) (h' : Rel R k y' x') (hx : 0 ≤ x) (hx' : 0 ≤ x') :
    Rel R k (y + y') (x + x') := by
  have := rel_sum_of_nonneg (R := R) (k := k) (.cons h (.cons h' .nil)) (by
    intro z hz
    simp only [List.mem_cons, List.not_mem_nil, or_false] at hz
    rcases hz with rfl | rfl
    exacts [hx, hx'])
  simpa using this

theorem Rel.sqrt {k : Nat} {y x : ℝ} (h : Rel R k y x) (hx : 0 ≤ x) : Rel R k (√y) (√x) := by
  obtain ⟨t, rfl, h1, h2⟩ := h
  have hp := pow_pos (base_pos R) k
  have ht : 0 ≤ t := hp.le.trans h1
  have hle : (1 - R.u) ^ k ≤ 1 := pow_le_one₀ (base_pos R).le (base_le R)
  have hge : 1 ≤ (1 - R.u)⁻¹ ^ k := one_le_pow₀ (one_le_inv R)
  refine ⟨√t, Real.sqrt_mul hx t, ?_, ?_⟩
  · refine Real.le_sqrt_of_sq_le ?_
    nlinarith
  · refine Real.sqrt_le_iff.2 ⟨by linarith, ?_⟩
    nlinarith

theorem norm2_rel (R : Rounding) (v : Vec ℝ) : Rel R 3 (norm2 R v) (dot v v) := by
  have h : ∀ i, Rel R 1 (R.pow (v i) 2) (v i ^ 2) := fun i => rel_rnd R _
  have s : ∀ i, 0 ≤ v i ^ 2 := fun i => sq_nonneg _
  have h1 := rel_round ((h 0).add (h 1) (s 0) (s 1))
  have h2 := rel_round (h1.add ((h 2).mono (by omega)) (add_nonneg (s 0) (s 1)) (s 2))
  have e : v 0 ^ 2 + v 1 ^ 2 + v 2 ^ 2 = dot v v := by unfold dot; ring
  rw [← e]
  exact h2

theorem unitised_rel (R : Rounding) {v : Vec ℝ} (hv : v ≠ 0) :
    ∃ a, unitised R v = some a ∧ ∀ i, Rel R 5 (a i) (v i / √(dot v v)) := by
  have hd := dot_self_pos hv
  have hn : Rel R 4 (R.rnd √(norm2 R v)) √(dot v v) := rel_round ((norm2_rel R v).sqrt hd.le)
  have hpos := hn.pos (Real.sqrt_pos.2 hd)
  refine ⟨fun i => R.div (v i) (R.rnd √(norm2 R v)), by simp only [unitised]; rw [if_neg hpos.ne'], fun i => ?_⟩
  have := rel_round ((Rel.refl R 0 (v i)).div hn)
  exact this

theorem cauchy3 (x0 x1 x2 y0 y1 y2 : ℝ) :
    (|x0| * |y0| + |x1| * |y1| + |x2| * |y2|) ^ 2 ≤ (x0 * x0 + x1 * x1 + x2 * x2) * (y0 * y0 + y1 * y1 + y2 * y2) := by
  have e : ∀ x : ℝ, x * x = |x| * |x| := fun x => (abs_mul_abs_self x).symm
  rw [e x0, e x1, e x2, e y0, e y1, e y2]
  generalize |x0| = X0, |x1| = X1, |x2| = X2, |y0| = Y0, |y1| = Y1, |y2| = Y2
  nlinarith [sq_nonneg (X0 * Y1 - X1 * Y0), sq_nonneg (X0 * Y2 - X2 * Y0), sq_nonneg (X1 * Y2 - X2 * Y1)]

theorem along_le (cfg : Config) {v a : Vec ℝ} (hv : v ≠ 0) (ha : ∀ i, Rel R 5 (a i) (v i / √(dot v v))) (p : Pt) :
    along R cfg a p ^ 2 ≤ w R ^ 18 * dot (rel cfg p) (rel cfg p) := by
  have hd := dot_self_pos hv
  set n : Vec ℝ := fun i => v i / √(dot v v) with hn
  have hn1 : dot n n = 1 := by
    have : dot n n = dot v v / (√(dot v v) * √(dot v v)) := by
      rw [hn]
      generalize √(dot v v) = r
      unfold dot
      ring
    rw [this, Real.mul_self_sqrt hd.le, div_self hd.ne']
  have hw := one_le_inv R
  have hw0 := w_pos R
  have hm : ∀ i, |R.mul (a i) (R.sub (p.x i) (cfg.center i))| ≤ w R ^ 7 * (|n i| * |rel cfg p i|) := by
    intro i
    have h1 : Rel R 7 (R.mul (a i) (R.sub (p.x i) (cfg.center i))) (n i * rel cfg p i) :=
      rel_round ((ha i).mul (rel_rnd R (p.x i - cfg.center i)))
    have := h1.abs_le
    rwa [abs_mul] at this
  have h0 := hm 0
  have h1 := hm 1
  have h2 := hm 2
  have hs : |along R cfg a p| ≤ w R ^ 9 * (|n 0| * |rel cfg p 0| + |n 1| * |rel cfg p 1| + |n 2| * |rel cfg p 2|) := by
    unfold along
    set m0 := R.mul (a 0) (R.sub (p.x 0) (cfg.center 0))
    set m1 := R.mul (a 1) (R.sub (p.x 1) (cfg.center 1))
    set m2 := R.mul (a 2) (R.sub (p.x 2) (cfg.center 2))
    have k1 : |R.add m0 m1| ≤ w R * (|m0| + |m1|) :=
      (abs_rnd_le R _).trans (mul_le_mul_of_nonneg_left (abs_add_le _ _) hw0.le)
    have k2 : |R.add (R.add m0 m1) m2| ≤ w R * (|R.add m0 m1| + |m2|) :=
      (abs_rnd_le R _).trans (mul_le_mul_of_nonneg_left (abs_add_le _ _) hw0.le)
    have k3 : |m2| ≤ w R * |m2| := le_mul_of_one_le_left (abs_nonneg _) hw
    have k4 : w R * (|R.add m0 m1| + |m2|) ≤ w R * (w R * (|m0| + |m1| + |m2|)) :=
      mul_le_mul_of_nonneg_left (by linarith) hw0.le
    refine (k2.trans k4).trans ?_
    rw [← mul_assoc, show w R ^ 9 = w R * w R * w R ^ 7 by ring, mul_assoc (w R * w R)]
    exact mul_le_mul_of_nonneg_left (by linarith) (mul_pos hw0 hw0).le
  have hsq := pow_le_pow_left₀ (abs_nonneg _) hs 2
  rw [sq_abs, mul_pow, ← pow_mul] at hsq
  refine hsq.trans (mul_le_mul_of_nonneg_left ?_ (pow_pos hw0 18).le)
  have hc := cauchy3 (n 0) (n 1) (n 2) (rel cfg p 0) (rel cfg p 1) (rel cfg p 2)
  have e : n 0 * n 0 + n 1 * n 1 + n 2 * n 2 = 1 := hn1
  rw [e, one_mul] at hc
  exact hc

theorem ellNorm2_rel (R : Rounding) {q s : ℝ} (hq : q ≠ 0) (hs : s ≠ 0) (y : Vec ℝ) :
    ∃ r, ellNorm2 R q s y = some r ∧ Rel R 5 r (y 0 ^ 2 + y 1 ^ 2 / q ^ 2 + y 2 ^ 2 / s ^ 2) := by
  have hq2 : 0 < R.pow q 2 := rnd_pos R (by positivity)
  have hs2 : 0 < R.pow s 2 := rnd_pos R (by positivity)
  unfold ellNorm2
  rw [if_neg hq2.ne', if_neg hs2.ne']
  refine ⟨_, rfl, ?_⟩
  have h0 : Rel R 3 (R.pow (y 0) 2) (y 0 ^ 2) := (rel_rnd R _).mono (by omega)
  have h1 : Rel R 3 (R.div (R.pow (y 1) 2) (R.pow q 2)) (y 1 ^ 2 / q ^ 2) :=
    rel_round ((rel_rnd R (y 1 ^ 2)).div (rel_rnd R (q ^ 2)))
  have h2 : Rel R 3 (R.div (R.pow (y 2) 2) (R.pow s 2)) (y 2 ^ 2 / s ^ 2) :=
    rel_round ((rel_rnd R (y 2 ^ 2)).div (rel_rnd R (s ^ 2)))
  have h3 := rel_round (h0.add h1 (by positivity) (by positivity))
  exact rel_round (h3.add (h2.mono (by omega)) (by positivity) (by positivity))

/-- The test of a particle near the centre succeeds. -/
theorem later_true {q s σ d Z : ℝ} (hd : 0 < d) (hσ : 0 < σ) (hσ1 : σ ≤ 1) (hq : 9 / 10 * σ ^ 2 ≤ q ^ 2) (hs : 9 / 10 * σ ^ 2 ≤ s ^ 2)
    (hZ : 0 ≤ Z) (hin : 4 * Z ≤ σ ^ 2 * d ^ 2) (hw : w R ^ 24 ≤ 101 / 100) (y : Vec ℝ) (hy : ∀ i, y i ^ 2 ≤ w R ^ 18 * Z) :
    ∃ r, ellNorm2 R q s y = some r ∧ r < R.pow d 2 := by
  have hσ2 : 0 < σ ^ 2 := by positivity
  have hq0 : q ≠ 0 := by rintro rfl; nlinarith
  have hs0 : s ≠ 0 := by rintro rfl; nlinarith
  obtain ⟨r, hr, hrel⟩ := ellNorm2_rel R hq0 hs0 y
  refine ⟨r, hr, ?_⟩
  have hw0 := w_pos R
  have hT : 0 < 9 / 10 * σ ^ 2 := by positivity
  have hX : 0 ≤ w R ^ 18 * Z := by positivity
  have b1 : y 1 ^ 2 / q ^ 2 ≤ w R ^ 18 * Z / (9 / 10 * σ ^ 2) := div_le_div₀ hX (hy 1) hT hq
  have b2 : y 2 ^ 2 / s ^ 2 ≤ w R ^ 18 * Z / (9 / 10 * σ ^ 2) := div_le_div₀ hX (hy 2) hT hs
  have b0 : y 0 ^ 2 ≤ w R ^ 18 * Z / (9 / 10 * σ ^ 2) := by
    refine (hy 0).trans ?_
    rw [le_div_iff₀ hT]
    have : 9 / 10 * σ ^ 2 ≤ 1 := by nlinarith
    nlinarith
  have hle : r ≤ w R ^ 5 * (3 * (w R ^ 18 * Z / (9 / 10 * σ ^ 2))) :=
    (hrel.le (by positivity)).trans (mul_le_mul_of_nonneg_left (by linarith) (by positivity))
  have hd2 : d ^ 2 ≤ w R * R.pow d 2 := by
    have := (rel_rnd R (d ^ 2)).ge (by positivity)
    rwa [pow_one] at this
  have e : w R * (w R ^ 5 * (3 * (w R ^ 18 * Z / (9 / 10 * σ ^ 2)))) = w R ^ 24 * (3 * Z) / (9 / 10 * σ ^ 2) := by ring
  have hlt : w R ^ 24 * (3 * Z) / (9 / 10 * σ ^ 2) < d ^ 2 := by
    rw [div_lt_iff₀ hT]
    have h1 : w R ^ 24 * (3 * Z) ≤ 101 / 100 * (3 * Z) := mul_le_mul_of_nonneg_right hw (by linarith)
    have h2 : 0 < σ ^ 2 * d ^ 2 := by positivity
    nlinarith
  have h3 : w R * r < w R * R.pow d 2 := by
    calc w R * r ≤ w R * (w R ^ 5 * (3 * (w R ^ 18 * Z / (9 / 10 * σ ^ 2)))) := mul_le_mul_of_nonneg_left hle hw0.le
      _ = w R ^ 24 * (3 * Z) / (9 / 10 * σ ^ 2) := e
      _ < d ^ 2 := hlt
      _ ≤ _ := hd2
  exact lt_of_mul_lt_mul_left h3 hw0.le

theorem first_true (cfg : Config) (p : Pt) {σ : ℝ} (hd : 0 < cfg.d) (hσ1 : σ ^ 2 ≤ 1)
    (hin : 4 * dot (rel cfg p) (rel cfg p) ≤ σ ^ 2 * cfg.d ^ 2) (hw : w R ^ 24 ≤ 101 / 100) : firstTest R cfg p = true := by
  unfold firstTest
  rw [decide_eq_true_eq]
  have hw0 := w_pos R
  have hw1 := one_le_inv R
  have h1 := (norm2_rel R fun i => R.sub (cfg.center i) (p.x i)).le (by unfold dot; nlinarith [mul_self_nonneg (R.sub (cfg.center 0) (p.x 0)), mul_self_nonneg (R.sub (cfg.center 1) (p.x 1)), mul_self_nonneg (R.sub (cfg.center 2) (p.x 2))])
  have hc : ∀ i, R.sub (cfg.center i) (p.x i) * R.sub (cfg.center i) (p.x i) ≤ w R ^ 2 * (rel cfg p i * rel cfg p i) := by
    intro i
    have h := (rel_rnd R (cfg.center i - p.x i)).pow 2
    have := h.le (sq_nonneg _)
    calc _ = R.rnd (cfg.center i - p.x i) ^ 2 := by rw [sq]; rfl
      _ ≤ _ := this
      _ = _ := by unfold rel; ring
  have h2 : dot (fun i => R.sub (cfg.center i) (p.x i)) (fun i => R.sub (cfg.center i) (p.x i)) ≤ w R ^ 2 * dot (rel cfg p) (rel cfg p) := by
    have := hc 0
    have := hc 1
    have := hc 2
    unfold dot
    linarith
  have hZ : 0 ≤ dot (rel cfg p) (rel cfg p) := by
    unfold dot; nlinarith [mul_self_nonneg (rel cfg p 0), mul_self_nonneg (rel cfg p 1), mul_self_nonneg (rel cfg p 2)]
  have hd2 : cfg.d ^ 2 ≤ w R * R.pow cfg.d 2 := by
    have := (rel_rnd R (cfg.d ^ 2)).ge (by positivity)
    rwa [pow_one] at this
  have h6 : w R ^ 6 ≤ 101 / 100 := (pow_le_pow_right₀ hw1 (by norm_num)).trans hw
  have hdp : 0 < cfg.d ^ 2 := by positivity
  have h3 : w R * norm2 R (fun i => R.sub (cfg.center i) (p.x i)) < w R * R.pow cfg.d 2 := by
    calc _ ≤ w R * (w R ^ 3 * (w R ^ 2 * dot (rel cfg p) (rel cfg p))) :=
          mul_le_mul_of_nonneg_left (h1.trans (mul_le_mul_of_nonneg_left h2 (by positivity))) hw0.le
      _ = w R ^ 6 * dot (rel cfg p) (rel cfg p) := by ring
      _ ≤ 101 / 100 * dot (rel cfg p) (rel cfg p) := mul_le_mul_of_nonneg_right h6 hZ
      _ < cfg.d ^ 2 := by nlinarith
      _ ≤ _ := hd2
  exact lt_of_mul_lt_mul_left h3 hw0.le

theorem select_all (pts : List Pt) (rs : List ℝ) (tests : List Bool) (hr : rs.length = pts.length) (ht : tests.length = pts.length)
    (h : ∀ t ∈ tests, t = true) : (select pts rs tests).map Prod.fst = pts ∧ (select pts rs tests).length = pts.length := by
  unfold select
  induction pts generalizing rs tests with
  | nil => simp
  | cons p pts ih =>
    cases rs with
    | nil => simp at hr
    | cons r rs =>
      cases tests with
      | nil => simp at ht
      | cons t tests =>
        have ht1 := h t List.mem_cons_self
        subst ht1
        have := ih rs tests (by simpa using hr) (by simpa using ht) fun x hx => h x (List.mem_cons_of_mem _ hx)
        simp only [List.zip_cons_cons, List.filterMap_cons, if_true, List.map_cons, List.length_cons]
        exact ⟨by rw [this.1], by rw [this.2]⟩

theorem tensor_fst (R S : Rounding) (c : Vec ℝ) {ps ps' : List (Particle ℝ × ℝ)} (h : ps.map Prod.fst = ps'.map Prod.fst) :
    roundedTensor R S false c ps = roundedTensor R S false c ps' := by
  have h1 : (ps.map fun p => p.1.mass) = ps'.map fun p => p.1.mass := by
    have := congrArg (List.map Particle.mass) h
    rwa [List.map_map, List.map_map] at this
  have h2 : ∀ mt i j, entry R false mt c ps i j = entry R false mt c ps' i j := by
    intro mt i j
    unfold entry
    have := congrArg (List.map fun x : Particle ℝ => term R false mt c (x, 0) i j) h
    rw [List.map_map, List.map_map] at this
    congr 1
  unfold roundedTensor
  simp only [h1, h2]

theorem momentAlong_eq (cfg : Config) (v : Vec ℝ) : momentAlong cfg v = form (secondMoments cfg) v := by
  unfold momentAlong secondMoments form dot
  induction cfg.pts with
  | nil => simp
  | cons p ps ih =>
    simp only [List.map_cons, List.sum_cons]
    rw [ih]
    ring

theorem moment_convex (cfg : Config) (hm : ∀ p ∈ cfg.pts, 0 < p.m) {t : ℝ} (ht : 0 < t) (x y : Vec ℝ) :
    momentAlong cfg x ≤ (1 + t) * momentAlong cfg y + (1 + t⁻¹) * momentAlong cfg fun i => x i - y i := by
  unfold momentAlong
  generalize cfg.pts = ps at hm
  induction ps with
  | nil => simp
  | cons p ps ih =>
    have h1 := ih fun q hq => hm q (List.mem_cons_of_mem _ hq)
    simp only [List.map_cons, List.sum_cons]
    have hp := hm p List.mem_cons_self
    set Y := dot y fun i => p.src i - cfg.srcCenter i with hY
    set D := dot (fun i => x i - y i) fun i => p.src i - cfg.srcCenter i with hD
    have e : (dot x fun i => p.src i - cfg.srcCenter i) = Y + D := by rw [hY, hD]; unfold dot; ring
    rw [e]
    have k : (Y + D) ^ 2 ≤ (1 + t) * Y ^ 2 + (1 + t⁻¹) * D ^ 2 := by
      have h2 : (1 + t) * Y ^ 2 + (1 + t⁻¹) * D ^ 2 - (Y + D) ^ 2 = t⁻¹ * (t * Y - D) ^ 2 := by field_simp; ring
      have h3 : 0 ≤ t⁻¹ * (t * Y - D) ^ 2 := by positivity
      linarith
    have := mul_le_mul_of_nonneg_left k hp.le
    linarith

theorem moment_near (cfg : Config) (hm : ∀ p ∈ cfg.pts, 0 < p.m) {M u : ℝ} (hM : ∀ v, momentAlong cfg v ≤ M * dot v v) (hu : 0 ≤ u)
    {x y : Vec ℝ} (h : dot (fun i => x i - y i) (fun i => x i - y i) ≤ 100 * u ^ 2) (hM0 : 0 ≤ M) :
    momentAlong cfg x ≤ (1 + 10 * u) * momentAlong cfg y + (10 * u + 100 * u ^ 2) * M := by
  rcases hu.eq_or_lt with rfl | hu
  · have : x = y := by
      by_contra hne
      have := dot_self_pos (v := fun i => x i - y i) fun h0 => hne (funext fun i => sub_eq_zero.1 (congrFun h0 i))
      linarith
    rw [this]
    linarith
  · have h1 := moment_convex cfg hm (t := 10 * u) (by positivity) x y
    have h2 := (hM fun i => x i - y i).trans (mul_le_mul_of_nonneg_left h hM0)
    have h3 := mul_le_mul_of_nonneg_left h2 (show 0 ≤ 1 + (10 * u)⁻¹ by positivity)
    have e : (1 + (10 * u)⁻¹) * (M * (100 * u ^ 2)) = (10 * u + 100 * u ^ 2) * M := by field_simp; ring
    linarith

theorem unit_near {v a : Vec ℝ} (hv : v ≠ 0) (hu : 10 * R.u ≤ 1 / 2) (ha : ∀ i, Rel R 5 (a i) (v i / √(dot v v))) :
    let n : Vec ℝ := fun i => v i / √(dot v v)
    dot n n = 1 ∧ dot (fun i => a i - n i) (fun i => a i - n i) ≤ 100 * R.u ^ 2 ∧ dot (fun i => n i - a i) (fun i => n i - a i) ≤ 100 * R.u ^ 2 ∧
      |dot a a - 1| ≤ 20 * R.u := by
  intro n
  have hd := dot_self_pos hv
  have hn1 : dot n n = 1 := by
    have : dot n n = dot v v / (√(dot v v) * √(dot v v)) := by
      show dot (fun i => v i / √(dot v v)) (fun i => v i / √(dot v v)) = _
      generalize √(dot v v) = r
      unfold dot
      ring
    rw [this, Real.mul_self_sqrt hd.le, div_self hd.ne']
  have hu0 := R.u_nonneg
  have hc : ∀ i, (a i - n i) * (a i - n i) ≤ 100 * R.u ^ 2 * (n i * n i) := by
    intro i
    have h1 := (ha i).err' (by norm_num; linarith)
    have h2 := mul_self_le_mul_self (abs_nonneg _) h1
    rw [abs_mul_abs_self] at h2
    refine h2.trans (le_of_eq ?_)
    have e : n i * n i = |v i / √(dot v v)| * |v i / √(dot v v)| := (abs_mul_abs_self _).symm
    rw [e]
    push_cast
    ring
  have h1 : dot (fun i => a i - n i) (fun i => a i - n i) ≤ 100 * R.u ^ 2 := by
    have e : 100 * R.u ^ 2 * dot n n = 100 * R.u ^ 2 := by rw [hn1, mul_one]
    rw [← e]
    have := hc 0
    have := hc 1
    have := hc 2
    unfold dot
    linarith
  refine ⟨hn1, h1, ?_, ?_⟩
  · have e : dot (fun i => n i - a i) (fun i => n i - a i) = dot (fun i => a i - n i) (fun i => a i - n i) := by unfold dot; ring
    rw [e]
    exact h1
  · have hr : Rel R 10 (dot a a) (dot n n) := by
      have hi : ∀ i, Rel R 10 (a i * a i) (n i * n i) := fun i => (ha i).mul (ha i)
      have s : ∀ i, 0 ≤ n i * n i := fun i => mul_self_nonneg _
      exact ((hi 0).add (hi 1) (s 0) (s 1)).add (hi 2) (add_nonneg (s 0) (s 1)) (s 2)
    have := hr.err' (by norm_num; linarith)
    rw [hn1, abs_one, mul_one] at this
    refine this.trans (le_of_eq ?_)
    push_cast
    ring

/-- The last step for the major axis. -/
theorem major_step {u bound A F G : ℝ} (hu0 : 0 ≤ u) (hu : u ≤ 1 / 5760) (hub : 576 * u ≤ bound) (hA : 0 < A)
    (t : (1 - bound) * A ≤ G) (k : G ≤ (1 + 10 * u) * F + (10 * u + 100 * u ^ 2) * A) : (1 - 2 * bound) * A ≤ F := by
  by_contra hcon
  push Not at hcon
  have hb0 : 0 ≤ bound := by linarith
  have h1 : (1 + 10 * u) * F ≤ (1 + 10 * u) * ((1 - 2 * bound) * A) := mul_le_mul_of_nonneg_left hcon.le (by linarith)
  have h2 : (1 - bound) * A ≤ ((1 + 10 * u) * (1 - 2 * bound) + (10 * u + 100 * u ^ 2)) * A := by linarith
  have h3 := le_of_mul_le_mul_right h2 hA
  have h4 : 0 ≤ u * bound := mul_nonneg hu0 hb0
  have h5 : u ^ 2 ≤ u * (1 / 5760) := by rw [sq]; exact mul_le_mul_of_nonneg_left hu hu0
  have h6 : bound ≤ 21 * u := by linarith
  have h7 : u = 0 := le_antisymm (by linarith) hu0
  subst h7
  have h8 : bound = 0 := le_antisymm (by linarith) hb0
  subst h8
  linarith

/-- The last step for the minor axis. -/
theorem minor_step {u bound A C F G : ℝ} (hu0 : 0 ≤ u) (hu : u ≤ 1 / 5760) (hub : 576 * u ≤ bound) (hb1 : bound ≤ 1 / 10) (hA : 0 < A)
    (hCA : C ≤ A) (t : G ≤ C + bound * A) (k : F ≤ (1 + 10 * u) * G + (10 * u + 100 * u ^ 2) * A) : F ≤ C + 2 * bound * A := by
  have h1 : (1 + 10 * u) * G ≤ (1 + 10 * u) * (C + bound * A) := mul_le_mul_of_nonneg_left t (by linarith)
  have h2 : 10 * u * C ≤ 10 * u * A := mul_le_mul_of_nonneg_left hCA (by linarith)
  have h3 : 10 * u * bound + 10 * u + (10 * u + 100 * u ^ 2) ≤ bound := by
    have h5 : u ^ 2 ≤ u * (1 / 5760) := by rw [sq]; exact mul_le_mul_of_nonneg_left hu hu0
    have h6 : u * bound ≤ u * (1 / 10) := mul_le_mul_of_nonneg_left hb1 hu0
    linarith
  have h4 := mul_le_mul_of_nonneg_right h3 hA.le
  linarith

/-- The eigensystem made of principal axes. -/
theorem principal_eigen {t : Tensor} {a b c : ℝ} {x y z : Vec ℝ} (hp : Principal t a b c x y z) :
    IsEigen t ⟨![c ^ 2, b ^ 2, a ^ 2], ![z, y, x]⟩ := by
  have hc := hp.pos
  have hb0 : 0 < b := hc.trans_le hp.cb
  have hf := frame_reversed hp.axes
  refine ⟨⟨pow_le_pow_left₀ hc.le hp.cb 2, pow_le_pow_left₀ hb0.le hp.ba 2⟩, ?_, ?_, ?_⟩
  · intro k
    fin_cases k
    exacts [hp.minor, hp.inter, hp.major]
  · intro k l hkl
    have := hf k l
    rwa [if_neg hkl] at this
  · intro k h0
    have h1 := hf k k
    rw [if_pos rfl] at h1
    simp only at h0
    rw [h0] at h1
    simp [dot] at h1

theorem moment_unit (cfg : Config) {v : Vec ℝ} (hv : v ≠ 0) :
    (momentAlong cfg fun i => v i / √(dot v v)) * dot v v = form (secondMoments cfg) v := by
  have hdv := dot_self_pos hv
  rw [momentAlong_eq]
  have e : form (secondMoments cfg) (fun i => v i / √(dot v v)) = form (secondMoments cfg) v / (√(dot v v) * √(dot v v)) := by
    generalize √(dot v v) = r
    unfold form dot
    ring
  rw [e, Real.mul_self_sqrt hdv.le, div_mul_cancel₀ _ hdv.ne']

theorem axes_end (cfg : Config) (hm : ∀ p ∈ cfg.pts, 0 < p.m) {a b c : ℝ} {x y z : Vec ℝ} (hp : Principal (secondMoments cfg) a b c x y z)
    {bound : ℝ} (hub : 576 * R.u ≤ bound) (hb1 : bound ≤ 1 / 10) {v2 v0 major minor : Vec ℝ} (hv2 : v2 ≠ 0) (hv0 : v0 ≠ 0)
    (r2 : ∀ i, Rel R 5 (major i) (v2 i / √(dot v2 v2))) (r0 : ∀ i, Rel R 5 (minor i) (v0 i / √(dot v0 v0)))
    (hF2 : (1 - bound) * a ^ 2 * dot v2 v2 ≤ form (secondMoments cfg) v2)
    (hF0 : form (secondMoments cfg) v0 ≤ (c ^ 2 + bound * a ^ 2) * dot v0 v0) :
    (1 - 2 * bound) * a ^ 2 ≤ momentAlong cfg major ∧ momentAlong cfg minor ≤ c ^ 2 + 2 * bound * a ^ 2 := by
  have hc := hp.pos
  have ha : 0 < a := (hc.trans_le hp.cb).trans_le hp.ba
  have hu0 := R.u_nonneg
  have hu : R.u ≤ 1 / 5760 := by linarith
  have hA : 0 < a ^ 2 := by positivity
  have hl : ∀ v, momentAlong cfg v ≤ a ^ 2 * dot v v := by
    intro v
    rw [momentAlong_eq]
    exact (form_le (principal_eigen hp) v).2
  have hu5 : 10 * R.u ≤ 1 / 2 := by linarith
  obtain ⟨-, -, d2', -⟩ := unit_near hv2 hu5 r2
  obtain ⟨-, d0, -, -⟩ := unit_near hv0 hu5 r0
  have t2 : (1 - bound) * a ^ 2 ≤ momentAlong cfg fun i => v2 i / √(dot v2 v2) := by
    rw [← moment_unit cfg hv2] at hF2
    exact le_of_mul_le_mul_right hF2 (dot_self_pos hv2)
  have t0 : (momentAlong cfg fun i => v0 i / √(dot v0 v0)) ≤ c ^ 2 + bound * a ^ 2 := by
    rw [← moment_unit cfg hv0] at hF0
    exact le_of_mul_le_mul_right hF0 (dot_self_pos hv0)
  exact ⟨major_step hu0 hu hub hA t2 (moment_near cfg hm hl hu0 d2' hA.le),
    minor_step hu0 hu hub hb1 hA (pow_le_pow_left₀ hc.le (hp.cb.trans hp.ba) 2) t0 (moment_near cfg hm hl hu0 d0 hA.le)⟩

theorem entering_moments (cfg : Config) (sel : Sel) (h : sel.map Prod.fst = cfg.pts) :
    moments false cfg.srcCenter (entering sel) = secondMoments cfg := by
  funext i j
  unfold moments secondMoments entering
  rw [List.map_map, ← h, List.map_map]
  congr 1
  refine List.map_congr_left fun pr _ => ?_
  simp

/-- What the computed eigensystem yields, for a selection of all particles, and that it belongs to a tensor close to the exact one. -/
theorem newShape_full (S : Rounding) {β : ℝ} (hβ0 : 0 ≤ β) (cfg : Config) (hsol : BackwardStable β cfg.solver) (hred : cfg.reduced = false)
    (hm : ∀ p ∈ cfg.pts, 0 < p.m) {a b c : ℝ} {x y z : Vec ℝ} (hp : Principal (secondMoments cfg) a b c x y z)
    (hb : 72 * (cfg.pts.length + 8) * R.u + 15 * β ≤ (c / a) ^ 2 / 10) :
    ∃ (q s : ℝ) (major inter minor : Vec ℝ) (e : Eigen) (T' : Tensor) (mt δ : ℝ),
      (∀ (sel : Sel) (q0 s0 : ℝ), sel.map Prod.fst = cfg.pts → q0 ≠ 0 → s0 ≠ 0 →
        newShape R S cfg sel q0 s0 = some (q, s, max (R.div |S.rnd (R.sub q q0)| q0) (R.div |S.rnd (R.sub s s0)| s0), major, inter, minor)) ∧
      |q ^ 2 - (b / a) ^ 2| ≤ 72 * (cfg.pts.length + 8) * R.u + 15 * β ∧
      |s ^ 2 - (c / a) ^ 2| ≤ 72 * (cfg.pts.length + 8) * R.u + 15 * β ∧
      (e.vec 2 ≠ 0 ∧ ∀ i, Rel R 5 (major i) (e.vec 2 i / √(dot (e.vec 2) (e.vec 2)))) ∧ (e.vec 1 ≠ 0 ∧ ∀ i, Rel R 5 (inter i) (e.vec 1 i / √(dot (e.vec 1) (e.vec 1)))) ∧
      (e.vec 0 ≠ 0 ∧ ∀ i, Rel R 5 (minor i) (e.vec 0 i / √(dot (e.vec 0) (e.vec 0)))) ∧
      (1 - (72 * (cfg.pts.length + 8) * R.u + 15 * β)) * a ^ 2 * dot (e.vec 2) (e.vec 2) ≤ form (secondMoments cfg) (e.vec 2) ∧
      form (secondMoments cfg) (e.vec 0) ≤ (c ^ 2 + (72 * (cfg.pts.length + 8) * R.u + 15 * β) * a ^ 2) * dot (e.vec 0) (e.vec 0) ∧
      rootRatio R (e.val 1) (e.val 2) = some q ∧ rootRatio R (e.val 0) (e.val 2) = some s ∧ IsEigen T' e ∧ 0 < mt ∧ 0 ≤ δ ∧
      12 * δ + 6 * R.u ≤ 72 * (cfg.pts.length + 8) * R.u + 15 * β ∧
      ∀ v, |form T' v - form (secondMoments cfg) v / mt| ≤ δ * (a ^ 2 / mt) * dot v v := by
  have hc := hp.pos
  have hb0 : 0 < b := hc.trans_le hp.cb
  have ha : 0 < a := hb0.trans_le hp.ba
  have hu0 := R.u_nonneg
  have hσ : 0 < c / a := div_pos hc ha
  have hσ1 : c / a ≤ 1 := (div_le_one ha).2 (hp.cb.trans hp.ba)
  have hσ2 : (c / a) ^ 2 ≤ 1 := pow_le_one₀ hσ.le hσ1
  have hσp : 0 < (c / a) ^ 2 := by positivity
  have hn0 : (0 : ℝ) ≤ cfg.pts.length := Nat.cast_nonneg _
  have hnu : 0 ≤ (cfg.pts.length + 8 : ℝ) * R.u := by positivity
  have hβ : β ≤ 1 / 5 := by linarith
  -- any selection of all particles
  set ps : List (Particle ℝ × ℝ) := entering (cfg.pts.map fun p => (p, (0 : ℝ))) with hps
  have hsel0 : (cfg.pts.map fun p => (p, (0 : ℝ))).map Prod.fst = cfg.pts := by rw [List.map_map]; exact List.map_id _
  have hlen : ps.length = cfg.pts.length := by rw [hps]; simp [entering]
  have hmom : moments false cfg.srcCenter ps = secondMoments cfg := entering_moments cfg _ hsel0
  have hT : ∀ sel : Sel, sel.map Prod.fst = cfg.pts →
      roundedTensor R S false cfg.srcCenter (entering sel) = roundedTensor R S false cfg.srcCenter ps := by
    intro sel hsel
    refine tensor_fst R S _ ?_
    rw [hps]
    unfold entering
    rw [List.map_map, List.map_map]
    have h1 : ∀ l : Sel, l.map (Prod.fst ∘ fun pr : Pt × ℝ => ((⟨pr.1.src, pr.1.m⟩, pr.2) : Particle ℝ × ℝ)) =
        (l.map Prod.fst).map fun p => (⟨p.src, p.m⟩ : Particle ℝ) := by
      intro l
      rw [List.map_map]
      rfl
    rw [h1, h1, hsel, hsel0]
  have hl : IsEigen (moments false cfg.srcCenter ps) ⟨![c ^ 2, b ^ 2, a ^ 2], ![z, y, x]⟩ := by
    rw [hmom]
    exact principal_eigen hp
  have key := C169_ratios R S β hβ0 hβ cfg.solver hsol false cfg.srcCenter ps (by
      intro p hp
      rw [hps] at hp
      simp only [entering, List.mem_map] at hp
      obtain ⟨_, ⟨p', hp', rfl⟩, rfl⟩ := hp
      exact hm p' hp') (by simp) (by rw [hlen]; linarith) _ hl (by show 0 < a ^ 2; positivity)
  simp only [hlen, hmom] at key
  obtain ⟨k1, k2, k3, k4, k5⟩ := key
  change ∀ q, _ → |q ^ 2 - b ^ 2 / a ^ 2| ≤ _ at k1
  change ∀ q, _ → |q ^ 2 - c ^ 2 / a ^ 2| ≤ _ at k2
  change _ < c ^ 2 / a ^ 2 → _ at k3
  change (1 - _) * a ^ 2 * _ ≤ _ at k4
  change _ ≤ (c ^ 2 + _ * a ^ 2) * _ at k5
  simp only [← div_pow] at k1 k2 k3
  obtain ⟨q, s, hq, hs⟩ := k3 (by linarith)
  have hms : ∀ p ∈ ps, 0 < p.1.mass := by
    intro p hp
    rw [hps] at hp
    simp only [entering, List.mem_map] at hp
    obtain ⟨_, ⟨p', hp', rfl⟩, rfl⟩ := hp
    exact hm p' hp'
  obtain ⟨T', mt, δ, hT', hmt, hδ0, -, hδb, -, hall⟩ := solver_near R S β hβ0 hβ cfg.solver hsol false cfg.srcCenter ps hms
    (by rw [hlen]; linarith) _ hl (by show 0 < a ^ 2; positivity)
  simp only [hlen, hmom] at hδb hall
  obtain ⟨major, h2, r2⟩ := unitised_rel R (hT'.nonzero 2)
  obtain ⟨inter, h1, r1⟩ := unitised_rel R (hT'.nonzero 1)
  obtain ⟨minor, h0, r0⟩ := unitised_rel R (hT'.nonzero 0)
  refine ⟨q, s, major, inter, minor, _, T', mt, δ, ?_, k1 q hq, k2 s hs, ⟨hT'.nonzero 2, r2⟩, ⟨hT'.nonzero 1, r1⟩, ⟨hT'.nonzero 0, r0⟩, k4, k5,
    hq, hs, hT', hmt, hδ0, hδb, hall⟩
  intro sel q0 s0 hsel hq0 hs0
  unfold newShape change
  rw [hred, hT sel hsel]
  simp only [hq, hs, if_neg hq0, if_neg hs0, h2, h1, h0, Option.bind_eq_bind, Option.bind_some]

/-- What the computed eigensystem yields, for a selection of all particles. -/
theorem newShape_all (S : Rounding) {β : ℝ} (hβ0 : 0 ≤ β) (cfg : Config) (hsol : BackwardStable β cfg.solver) (hred : cfg.reduced = false)
    (hm : ∀ p ∈ cfg.pts, 0 < p.m) {a b c : ℝ} {x y z : Vec ℝ} (hp : Principal (secondMoments cfg) a b c x y z)
    (hb : 72 * (cfg.pts.length + 8) * R.u + 15 * β ≤ (c / a) ^ 2 / 10) :
    ∃ (q s : ℝ) (major inter minor : Vec ℝ) (v2 v1 v0 : Vec ℝ),
      (∀ (sel : Sel) (q0 s0 : ℝ), sel.map Prod.fst = cfg.pts → q0 ≠ 0 → s0 ≠ 0 →
        newShape R S cfg sel q0 s0 = some (q, s, max (R.div |S.rnd (R.sub q q0)| q0) (R.div |S.rnd (R.sub s s0)| s0), major, inter, minor)) ∧
      |q ^ 2 - (b / a) ^ 2| ≤ 72 * (cfg.pts.length + 8) * R.u + 15 * β ∧
      |s ^ 2 - (c / a) ^ 2| ≤ 72 * (cfg.pts.length + 8) * R.u + 15 * β ∧
      (v2 ≠ 0 ∧ ∀ i, Rel R 5 (major i) (v2 i / √(dot v2 v2))) ∧ (v1 ≠ 0 ∧ ∀ i, Rel R 5 (inter i) (v1 i / √(dot v1 v1))) ∧
      (v0 ≠ 0 ∧ ∀ i, Rel R 5 (minor i) (v0 i / √(dot v0 v0))) ∧
      (1 - (72 * (cfg.pts.length + 8) * R.u + 15 * β)) * a ^ 2 * dot v2 v2 ≤ form (secondMoments cfg) v2 ∧
      form (secondMoments cfg) v0 ≤ (c ^ 2 + (72 * (cfg.pts.length + 8) * R.u + 15 * β) * a ^ 2) * dot v0 v0 := by
  obtain ⟨q, s, major, inter, minor, e, -, -, -, h1, h2, h3, h4, h5, h6, h7, h8, -⟩ := newShape_full (R := R) S hβ0 cfg hsol hred hm hp hb
  exact ⟨q, s, major, inter, minor, _, _, _, h1, h2, h3, h4, h5, h6, h7, h8⟩

theorem mapM_some {α γ : Type} (f : α → Option γ) (g : α → γ) (l : List α) (h : ∀ x ∈ l, f x = some (g x)) : l.mapM f = some (l.map g) := by
  induction l with
  | nil => rfl
  | cons x l ih =>
    rw [List.mapM_cons, h x List.mem_cons_self, ih fun y hy => h y (List.mem_cons_of_mem _ hy)]
    rfl

/-- C170. The object is described by the exact extents `a ≥ b ≥ c` of its particles (or velocities) along its principal axes. All particles are
within half of `c / a * d` of the centre. -/
theorem C170_whole (R S : Rounding) (β : ℝ) (hβ0 : 0 ≤ β) (cfg : Config) (hsol : BackwardStable β cfg.solver) (hred : cfg.reduced = false)
    (_hell : cfg.deltaD = none) (hm : ∀ p ∈ cfg.pts, 0 < p.m) (htol0 : 0 ≤ cfg.tol) (htol : cfg.tol < 1) (hwall : 2 ≤ cfg.wall)
    (hn : cfg.itMin ≤ cfg.pts.length) (hd : 0 < cfg.d) (a b c : ℝ) (x y z : Vec ℝ) (hp : Principal (secondMoments cfg) a b c x y z)
    (hin : ∀ p ∈ cfg.pts, Periodic.dist p.x cfg.center ≤ c / a * cfg.d / 2)
    (bound : ℝ) (hbound : bound = 72 * (cfg.pts.length + 8) * R.u + 15 * β) (hb : bound ≤ (c / a) ^ 2 / 10)
    (fuel : Nat) (hfuel : 3 ≤ fuel) (morph : Morph) :
    ∃ m, roundedRun R S fuel cfg morph = some (some m) ∧ m.d = cfg.d ∧
      |m.q ^ 2 - (b / a) ^ 2| ≤ bound ∧ |m.s ^ 2 - (c / a) ^ 2| ≤ bound ∧
      |dot m.major m.major - 1| ≤ 20 * R.u ∧ |dot m.inter m.inter - 1| ≤ 20 * R.u ∧ |dot m.minor m.minor - 1| ≤ 20 * R.u ∧
      (1 - 2 * bound) * a ^ 2 ≤ momentAlong cfg m.major ∧ momentAlong cfg m.minor ≤ c ^ 2 + 2 * bound * a ^ 2 := by
  subst hbound
  obtain ⟨q, s, major, inter, minor, v2, v1, v0, hnew, hq, hs, ⟨hv2, r2⟩, ⟨hv1, r1⟩, ⟨hv0, r0⟩, hF2, hF0⟩ :=
    newShape_all S hβ0 cfg hsol hred hm hp hb
  have hc := hp.pos
  have hb0 : 0 < b := hc.trans_le hp.cb
  have ha : 0 < a := hb0.trans_le hp.ba
  have hu0 := R.u_nonneg
  have hσ : 0 < c / a := div_pos hc ha
  have hσ1 : c / a ≤ 1 := (div_le_one ha).2 (hp.cb.trans hp.ba)
  have hσ2 : (c / a) ^ 2 ≤ 1 := pow_le_one₀ hσ.le hσ1
  have hσp : 0 < (c / a) ^ 2 := by positivity
  have hn0 : (0 : ℝ) ≤ cfg.pts.length := Nat.cast_nonneg _
  have hnu : 0 ≤ (cfg.pts.length : ℝ) * R.u := by positivity
  set bound := 72 * (cfg.pts.length + 8) * R.u + 15 * β with hbd
  have hub : 576 * R.u ≤ bound := by rw [hbd]; linarith
  have hu : R.u ≤ 1 / 5760 := by linarith
  have hw : w R ^ 24 ≤ 101 / 100 := by
    have h1 : w R ≤ 5760 / 5759 := by
      unfold w
      rw [inv_eq_one_div, div_le_div_iff₀ (base_pos R) (by norm_num)]
      linarith
    exact (pow_le_pow_left₀ (w_pos R).le h1 24).trans (by norm_num)
  set σ := c / a with hσd
  have hqσ : 9 / 10 * σ ^ 2 ≤ q ^ 2 := by
    have h1 : σ ^ 2 ≤ (b / a) ^ 2 := pow_le_pow_left₀ hσ.le (div_le_div_of_nonneg_right hp.cb ha.le) 2
    have := (abs_le.1 hq).1
    linarith
  have hsσ : 9 / 10 * σ ^ 2 ≤ s ^ 2 := by
    have := (abs_le.1 hs).1
    linarith
  have hZ : ∀ p, 0 ≤ dot (rel cfg p) (rel cfg p) := fun p => by
    unfold dot; nlinarith [mul_self_nonneg (rel cfg p 0), mul_self_nonneg (rel cfg p 1), mul_self_nonneg (rel cfg p 2)]
  have hin' : ∀ p ∈ cfg.pts, 4 * dot (rel cfg p) (rel cfg p) ≤ σ ^ 2 * cfg.d ^ 2 := by
    intro p hpp
    have h1 := hin p hpp
    have e : Periodic.dist p.x cfg.center = √(dot (rel cfg p) (rel cfg p)) := by
      unfold Periodic.dist dot rel
      congr 1
      ring
    rw [e] at h1
    have h2 := pow_le_pow_left₀ (Real.sqrt_nonneg _) h1 2
    rw [Real.sq_sqrt (hZ p)] at h2
    nlinarith
  -- the first selection
  have hsel0 : (roundedStart R cfg morph).sel.map Prod.fst = cfg.pts ∧ (roundedStart R cfg morph).sel.length = cfg.pts.length := by
    refine select_all _ _ _ (by simp) (by simp) ?_
    intro t ht
    obtain ⟨p, hpp, rfl⟩ := List.mem_map.1 ht
    exact first_true cfg p hd hσ2 (hin' p hpp) hw
  -- one iteration from any state with all particles
  have hiter : ∀ st : PState, st.sel.map Prod.fst = cfg.pts → st.q ≠ 0 → st.s ≠ 0 → ∃ st', roundedIterate R S cfg st = some st' ∧
      st'.q = q ∧ st'.s = s ∧ st'.err = max (R.div |S.rnd (R.sub q st.q)| st.q) (R.div |S.rnd (R.sub s st.s)| st.s) ∧ st'.iteration = st.iteration + 1 ∧
      st'.sel.map Prod.fst = cfg.pts ∧ st'.sel.length = cfg.pts.length ∧ st'.morph = ⟨cfg.d, q, s, major, inter, minor⟩ := by
    intro st hsel hq0 hs0
    have hlater : ∀ p ∈ cfg.pts, ∃ r, ellNorm2 R q s ![along R cfg major p, along R cfg inter p, along R cfg minor p] = some r ∧
        r < R.pow cfg.d 2 := by
      intro p hpp
      refine later_true hd hσ hσ1 hqσ hsσ (hZ p) (hin' p hpp) hw _ ?_
      intro i
      fin_cases i
      exacts [along_le cfg hv2 r2 p, along_le cfg hv1 r1 p, along_le cfg hv0 r0 p]
    set princ := cfg.pts.map fun p => ![along R cfg major p, along R cfg inter p, along R cfg minor p] with hprinc
    have hsome : ∀ v ∈ princ, ellNorm2 R q s v = some ((ellNorm2 R q s v).getD 0) ∧ (ellNorm2 R q s v).getD 0 < R.pow cfg.d 2 := by
      intro v hv
      obtain ⟨p, hpp, rfl⟩ := List.mem_map.1 hv
      obtain ⟨r, hr, hlt⟩ := hlater p hpp
      rw [hr]
      exact ⟨rfl, hlt⟩
    have m1 := mapM_some (fun v => (ellNorm2 R q s v).map fun x => R.rnd √x) (fun v => R.rnd √((ellNorm2 R q s v).getD 0)) princ
      fun v hv => by rw [(hsome v hv).1]; rfl
    have m2 := mapM_some (fun v => (ellNorm2 R q s v).map fun x => decide (x < R.pow cfg.d 2)) (fun _ => true) princ
      fun v hv => by
        rw [(hsome v hv).1, Option.map_some]
        exact congrArg some (decide_eq_true (hsome v hv).2)
    have hs' := select_all cfg.pts (princ.map fun v => R.rnd √((ellNorm2 R q s v).getD 0)) (princ.map fun _ => true)
      (by simp [hprinc]) (by simp [hprinc]) (by simp)
    unfold roundedIterate
    rw [hnew st.sel st.q st.s hsel hq0 hs0]
    simp only [Option.bind_eq_bind, Option.bind_some]
    rw [← hprinc, m1]
    simp only [Option.bind_some]
    rw [m2]
    exact ⟨_, rfl, rfl, rfl, rfl, rfl, hs'.1, hs'.2, rfl⟩
  -- the run
  have hrun : roundedRun R S fuel cfg morph = some (some ⟨cfg.d, q, s, major, inter, minor⟩) := by
    obtain ⟨fuel, rfl⟩ : ∃ f, fuel = f + 3 := ⟨fuel - 3, by omega⟩
    obtain ⟨s1, h1, q1, ss1, e1, i1, f1, l1, m1⟩ := hiter (roundedStart R cfg morph) hsel0.1 one_ne_zero one_ne_zero
    have st0 : roundedStep R S cfg (roundedStart R cfg morph) = .go s1 := by
      unfold roundedStep
      rw [if_pos (show (roundedStart R cfg morph).err > cfg.tol from htol), if_neg (show ¬ ((roundedStart R cfg morph).iteration : Int) > cfg.wall by
        show ¬ ((1 : Nat) : Int) > cfg.wall; push_cast; omega), if_neg (by rw [hsel0.2]; omega), h1]
    unfold roundedRun
    rw [loop, st0]
    simp only
    by_cases herr : s1.err > cfg.tol
    · have hq0 : s1.q ≠ 0 := by rw [q1]; rintro rfl; nlinarith
      have hs0 : s1.s ≠ 0 := by rw [ss1]; rintro rfl; nlinarith
      obtain ⟨s2, h2, -, -, e2, -, -, -, m2⟩ := hiter s1 f1 hq0 hs0
      have st1 : roundedStep R S cfg s1 = .go s2 := by
        unfold roundedStep
        rw [if_pos herr, if_neg (by rw [i1]; show ¬ (((1 + 1 : Nat) : Int) > cfg.wall); push_cast; omega), if_neg (by rw [l1]; omega), h2]
      have hz : ∀ v : ℝ, R.div |S.rnd (R.sub v v)| v = 0 := by
        intro v
        unfold Rounding.div Rounding.sub
        rw [sub_self, rnd_zero, rnd_zero, abs_zero, zero_div, rnd_zero]
      have e2' : s2.err = 0 := by rw [e2, q1, ss1, hz, hz, max_self]
      have st2 : roundedStep R S cfg s2 = .stop (some s2.morph) := by
        unfold roundedStep
        rw [if_neg (by rw [e2']; linarith)]
      rw [loop, st1]
      simp only
      rw [loop, st2, m2]
    · have st1 : roundedStep R S cfg s1 = .stop (some s1.morph) := by
        unfold roundedStep
        rw [if_neg herr]
      rw [loop, st1, m1]
  -- the axes
  have hu5 : 10 * R.u ≤ 1 / 2 := by linarith
  have hb1 : bound ≤ 1 / 10 := by linarith
  obtain ⟨x2, x0⟩ := axes_end cfg hm hp hub hb1 hv2 hv0 r2 r0 hF2 hF0
  exact ⟨_, hrun, rfl, hq, hs, (unit_near hv2 hu5 r2).2.2.2, (unit_near hv1 hu5 r1).2.2.2, (unit_near hv0 hu5 r0).2.2.2, x2, x0⟩

end

/-- Six particles on the axes at distances 3, 2, 1, in an ellipsoid of size 100. -/
noncomputable def axisCfg (sol : Solver) : Config :=
  ⟨[⟨![3, 0, 0], ![3, 0, 0], 1⟩, ⟨![-3, 0, 0], ![-3, 0, 0], 1⟩, ⟨![0, 2, 0], ![0, 2, 0], 1⟩, ⟨![0, -2, 0], ![0, -2, 0], 1⟩,
    ⟨![0, 0, 1], ![0, 0, 1], 1⟩, ⟨![0, 0, -1], ![0, 0, -1], 1⟩], 0, 0, 100, none, 1 / 100, 100, 6, false, sol⟩

theorem axisCfg_principal (sol : Solver) :
    Principal (secondMoments (axisCfg sol)) (3 * √2) (2 * √2) √2 ![1, 0, 0] ![0, 1, 0] ![0, 0, 1] := by
  have h2 : 0 < √(2 : ℝ) := by positivity
  have e2 : √(2 : ℝ) ^ 2 = 2 := Real.sq_sqrt (by norm_num)
  refine ⟨h2, by linarith, by linarith, ?_, ?_, ?_, ?_⟩
  · simp [Shapes.Orthonormal, dot]
  all_goals
    intro i
    simp only [mul_pow, e2]
    fin_cases i <;> simp [secondMoments, axisCfg] <;> norm_num

/-- In double precision, with the total mass in single precision, its axis ratios 2/3 and 1/3 are found to ten digits. -/
example (sol : Solver) (hsol : GoodSolver sol) :
    ∃ m, roundedRun float64 float32 3 (axisCfg sol) .zero = some (some m) ∧ m.d = 100 ∧ |m.q ^ 2 - 4 / 9| ≤ 1 / 10 ^ 10 ∧
      |m.s ^ 2 - 1 / 9| ≤ 1 / 10 ^ 10 := by
  have hu : float64.u = 1 / 2 ^ 53 := by rw [show float64.u = (1 / 2) ^ 53 from rfl]; norm_num
  have h2 : 0 < √(2 : ℝ) := by positivity
  have e1 : √(2 : ℝ) / (3 * √2) = 1 / 3 := by field_simp
  have e2 : 2 * √(2 : ℝ) / (3 * √2) = 2 / 3 := by field_simp
  have hlen : (axisCfg sol).pts.length = 6 := rfl
  obtain ⟨m, h, hd, hq, hs, -⟩ := C170_whole float64 float32 0 le_rfl (axisCfg sol) (GoodSolver.stable hsol) rfl rfl (by simp [axisCfg])
    (by simp only [axisCfg]; norm_num) (by simp only [axisCfg]; norm_num) (by simp only [axisCfg]; norm_num) (by simp [axisCfg]) (by simp only [axisCfg]; norm_num)
    _ _ _ _ _ _ (axisCfg_principal sol) (by
      rw [e1]
      have hd : ∀ p ∈ (axisCfg sol).pts, Periodic.dist p.x (axisCfg sol).center ≤ 3 := by
        intro p hp
        unfold Periodic.dist
        rw [Real.sqrt_le_iff]
        refine ⟨by norm_num, ?_⟩
        simp only [axisCfg, List.mem_cons, List.not_mem_nil, or_false] at hp
        rcases hp with rfl | rfl | rfl | rfl | rfl | rfl <;> simp [axisCfg] <;> norm_num
      intro p hp
      refine (hd p hp).trans ?_
      simp only [axisCfg]
      norm_num) _ rfl (by rw [hu, e1, hlen]; norm_num) 3 le_rfl .zero
  rw [hu, hlen] at hq hs
  rw [e2] at hq
  rw [e1] at hs
  refine ⟨m, h, hd, ?_, ?_⟩
  · refine (le_of_eq ?_).trans (hq.trans (by norm_num))
    norm_num
  · refine (le_of_eq ?_).trans (hs.trans (by norm_num))
    norm_num

end Verif.Round
