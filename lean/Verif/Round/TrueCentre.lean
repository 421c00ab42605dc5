import Verif.Round.WholeShape
import Verif.Round.CentreProps
import Verif.Round.MeanVelocity
import Verif.Shapes.Examples

/-!
# Global shapes about computed centres, with rounding (C171)

The centre from which positions enter the tensor is computed with rounding as well: `calcCoM` (python_routines.py:530-547; called in
shape_profs_algos.pyx:591, 701) for positions, `CythonHelpers.calcCoM` (helper_class.pyx:85-107; called in shape_profs_algos.pyx:827, 943)
for velocities.
-/

namespace Verif.Round

open Verif.Shapes
open Verif (Vec Particle)

/-! ## Specification -/

/-- Exact mean of the vectors entering the tensor (positions or velocities), weighted with the masses. -/
noncomputable def trueMean (cfg : Config) (i : Fin 3) : ℝ := (cfg.pts.map fun p => p.m * p.src i).sum / (cfg.pts.map Pt.m).sum

/-- Second moments of the vectors entering the tensor about their exact mean, weighted with the masses. -/
noncomputable def centralMoments (cfg : Config) (i j : Fin 3) : ℝ :=
  (cfg.pts.map fun p => p.m * (p.src i - trueMean cfg i) * (p.src j - trueMean cfg j)).sum

/-- Mean square of these vectors about their mean along a direction, up to a factor. -/
noncomputable def centralAlong (cfg : Config) (v : Vec ℝ) : ℝ :=
  (cfg.pts.map fun p => p.m * (dot v fun i => p.src i - trueMean cfg i) ^ 2).sum

/-! ## Proof -/

/-- Distance between the centre used and the mean. -/
noncomputable def offCentre (cfg : Config) : Vec ℝ := fun i => trueMean cfg i - cfg.srcCenter i

theorem central_eq (cfg : Config) (v : Vec ℝ) : centralAlong cfg v = form (centralMoments cfg) v :=
  momentAlong_eq { cfg with srcCenter := trueMean cfg } v

theorem first_moment (cfg : Config) (hM : 0 < (cfg.pts.map Pt.m).sum) (i : Fin 3) :
    (cfg.pts.map fun p => p.m * (p.src i - trueMean cfg i)).sum = 0 := by
  have h : ∀ (ps : List Pt) (c : ℝ), (ps.map fun p => p.m * (p.src i - c)).sum = (ps.map fun p => p.m * p.src i).sum - (ps.map Pt.m).sum * c := by
    intro ps c
    induction ps with
    | nil => simp
    | cons p ps ih =>
      simp only [List.map_cons, List.sum_cons, ih]
      ring
  rw [h]
  unfold trueMean
  rw [mul_div_cancel₀ _ hM.ne', sub_self]

/-- Moments about the centre used are larger by the square of its error. -/
theorem moment_shift (cfg : Config) (hM : 0 < (cfg.pts.map Pt.m).sum) (v : Vec ℝ) :
    momentAlong cfg v = centralAlong cfg v + (cfg.pts.map Pt.m).sum * dot v (offCentre cfg) ^ 2 := by
  have h : ∀ ps : List Pt, (ps.map fun p => p.m * (dot v fun i => p.src i - cfg.srcCenter i) ^ 2).sum =
      (ps.map fun p => p.m * (dot v fun i => p.src i - trueMean cfg i) ^ 2).sum + (ps.map Pt.m).sum * dot v (offCentre cfg) ^ 2 +
      2 * dot v (offCentre cfg) * (v 0 * (ps.map fun p => p.m * (p.src 0 - trueMean cfg 0)).sum +
        v 1 * (ps.map fun p => p.m * (p.src 1 - trueMean cfg 1)).sum + v 2 * (ps.map fun p => p.m * (p.src 2 - trueMean cfg 2)).sum) := by
    intro ps
    induction ps with
    | nil => simp
    | cons p ps ih =>
      simp only [List.map_cons, List.sum_cons, ih]
      unfold dot offCentre
      ring
  unfold momentAlong centralAlong
  rw [h, first_moment cfg hM, first_moment cfg hM, first_moment cfg hM]
  ring

theorem dot_sq_le (v x : Vec ℝ) : dot v x ^ 2 ≤ dot v v * dot x x := by
  unfold dot
  nlinarith [sq_nonneg (v 0 * x 1 - v 1 * x 0), sq_nonneg (v 0 * x 2 - v 2 * x 0), sq_nonneg (v 1 * x 2 - v 2 * x 1)]

/-- Principal axes of a positive definite tensor. -/
theorem principal_exists {t : Tensor} (hs : ∀ i j, t i j = t j i) {k : ℝ} (hk : 0 < k) (hpos : ∀ v, k * dot v v ≤ form t v) :
    ∃ a b c x y z, Principal t a b c x y z := by
  obtain ⟨sol, hsol⟩ := exists_goodSolver
  have he := hsol t hs
  set e := sol t
  have hf := unit_frame he.orth he.nonzero
  have h0 : 0 < e.val 0 := by
    have h1 := form_vec he 0
    have h2 := hpos (e.vec 0)
    have h3 := dot_self_pos (he.nonzero 0)
    rw [h1] at h2
    exact hk.trans_le (le_of_mul_le_mul_right h2 h3)
  have h1 := h0.trans_le he.ordered.1
  have h2 := h1.trans_le he.ordered.2
  have hu : ∀ k, IsEigenvector t (e.val k) (unit e.vec k) := by
    intro k i
    have := he.eigen k i
    unfold unit
    linear_combination (√(dot (e.vec k) (e.vec k)))⁻¹ * this
  refine ⟨√(e.val 2), √(e.val 1), √(e.val 0), unit e.vec 2, unit e.vec 1, unit e.vec 0, Real.sqrt_pos.2 h0, Real.sqrt_le_sqrt he.ordered.1,
    Real.sqrt_le_sqrt he.ordered.2, ?_, ?_, ?_, ?_⟩
  · exact ⟨by simpa using hf 2 2, by simpa using hf 1 1, by simpa using hf 0 0, by simpa using hf 2 1, by simpa using hf 2 0, by simpa using hf 1 0⟩
  · rw [Real.sq_sqrt h2.le]; exact hu 2
  · rw [Real.sq_sqrt h1.le]; exact hu 1
  · rw [Real.sq_sqrt h0.le]; exact hu 0

theorem principal_form {t : Tensor} {a b c : ℝ} {x y z : Vec ℝ} (hp : Principal t a b c x y z) (v : Vec ℝ) :
    c ^ 2 * dot v v ≤ form t v ∧ form t v ≤ a ^ 2 * dot v v := form_le (principal_eigen hp) v

theorem principal_vals {t : Tensor} {a b c : ℝ} {x y z : Vec ℝ} (hp : Principal t a b c x y z) :
    form t x = a ^ 2 ∧ dot x x = 1 ∧ form t z = c ^ 2 ∧ dot z z = 1 := by
  obtain ⟨hx, -, hz, -⟩ := hp.axes
  have h2 := form_vec (principal_eigen hp) 2
  have h0 := form_vec (principal_eigen hp) 0
  change form t x = a ^ 2 * dot x x at h2
  change form t z = c ^ 2 * dot z z at h0
  rw [hx, mul_one] at h2
  rw [hz, mul_one] at h0
  exact ⟨h2, hx, h0, hz⟩

/-- Principal axes about the centre used, compared with those about the mean. -/
theorem shifted_principal (cfg : Config) (hM : 0 < (cfg.pts.map Pt.m).sum) {a b c : ℝ} {x y z : Vec ℝ}
    (hp : Principal (centralMoments cfg) a b c x y z) {δ : ℝ} (hδ : (cfg.pts.map Pt.m).sum * dot (offCentre cfg) (offCentre cfg) ≤ δ * a ^ 2)
    (hδ0 : 0 ≤ δ) (hδ1 : δ ≤ 1 / 2) :
    ∃ a' b' c' x' y' z', Principal (secondMoments cfg) a' b' c' x' y' z' ∧ a ^ 2 ≤ a' ^ 2 ∧ a' ^ 2 ≤ (1 + δ) * a ^ 2 ∧ c ^ 2 ≤ c' ^ 2 ∧
      c' ^ 2 ≤ c ^ 2 + δ * a ^ 2 ∧ |(b' / a') ^ 2 - (b / a) ^ 2| ≤ 12 * δ ∧ |(c' / a') ^ 2 - (c / a) ^ 2| ≤ 12 * δ := by
  have hc := hp.pos
  have ha : 0 < a := (hc.trans_le hp.cb).trans_le hp.ba
  have hlow : ∀ v, form (centralMoments cfg) v ≤ form (secondMoments cfg) v := by
    intro v
    rw [← central_eq, ← momentAlong_eq, moment_shift cfg hM]
    have := mul_nonneg hM.le (sq_nonneg (dot v (offCentre cfg)))
    linarith
  have hup : ∀ v, form (secondMoments cfg) v ≤ form (centralMoments cfg) v + δ * a ^ 2 * dot v v := by
    intro v
    rw [← central_eq, ← momentAlong_eq, moment_shift cfg hM]
    have hv : 0 ≤ dot v v := by unfold dot; nlinarith [mul_self_nonneg (v 0), mul_self_nonneg (v 1), mul_self_nonneg (v 2)]
    have h1 := mul_le_mul_of_nonneg_left (dot_sq_le v (offCentre cfg)) hM.le
    have h2 := mul_le_mul_of_nonneg_right hδ hv
    linarith
  obtain ⟨a', b', c', x', y', z', hp'⟩ := principal_exists (t := secondMoments cfg) (k := c ^ 2)
    (fun i j => by unfold secondMoments; congr 1; exact List.map_congr_left fun p _ => by ring) (by positivity)
    fun v => (principal_form hp v).1.trans (hlow v)
  obtain ⟨v1, v2, v3, v4⟩ := principal_vals hp
  obtain ⟨w1, w2, w3, w4⟩ := principal_vals hp'
  have near := ratios_near (principal_eigen hp) (principal_eigen hp') hδ0 hδ1 (by show 0 ≤ c ^ 2; positivity) (by show 0 < a ^ 2; positivity)
    fun v => by
      show |_| ≤ δ * a ^ 2 * dot v v
      rw [abs_le]
      have := hlow v
      have := hup v
      constructor <;> linarith
  obtain ⟨-, n1, n0⟩ := near
  change |b' ^ 2 / a' ^ 2 - b ^ 2 / a ^ 2| ≤ _ at n1
  change |c' ^ 2 / a' ^ 2 - c ^ 2 / a ^ 2| ≤ _ at n0
  rw [← div_pow, ← div_pow] at n1 n0
  refine ⟨a', b', c', x', y', z', hp', ?_, ?_, ?_, ?_, n1, n0⟩
  · have h1 := hlow x
    have h2 := (principal_form hp' x).2
    rw [v2, mul_one] at h2
    linarith
  · have h1 := hup x'
    have h2 := (principal_form hp x').2
    rw [w2, mul_one] at h2
    rw [w2, mul_one] at h1
    linarith
  · have h1 := hlow z'
    have h2 := (principal_form hp z').1
    rw [w4, mul_one] at h2
    linarith
  · have h1 := hup z
    have h2 := (principal_form hp' z).1
    rw [v4, mul_one] at h2
    rw [v4, mul_one] at h1
    linarith

theorem dot_nonneg' (v : Vec ℝ) : 0 ≤ dot v v := by
  unfold dot
  nlinarith [mul_self_nonneg (v 0), mul_self_nonneg (v 1), mul_self_nonneg (v 2)]

theorem major_end {M bound δ A A' C K o n : ℝ} (hM : 0 ≤ M) (hb1 : bound ≤ 1 / 20) (ga : A ≤ A') (hK : K ≤ n * o) (hn : n ≤ 2) (ho : 0 ≤ o)
    (hoff : M * o ≤ δ * A) (mx : (1 - 2 * bound) * A' ≤ C + M * K) : (1 - 2 * bound - 2 * δ) * A ≤ C := by
  have h1 := mul_le_mul_of_nonneg_left hK hM
  have h3 := mul_le_mul_of_nonneg_right hn (mul_nonneg hM ho)
  have h4 : (1 - 2 * bound) * A ≤ (1 - 2 * bound) * A' := mul_le_mul_of_nonneg_left ga (by linarith)
  linarith

theorem minor_end {bound δ A A' C C' F K : ℝ} (hb0 : 0 ≤ bound) (hb1 : bound ≤ 1 / 20) (hδ : 0 ≤ δ) (hA : 0 ≤ A) (hK : 0 ≤ K)
    (ga : A' ≤ (1 + δ) * A) (gc : C' ≤ C + δ * A) (mz : F + K ≤ C' + 2 * bound * A') : F ≤ C + (2 * bound + 2 * δ) * A := by
  have h2 : 2 * bound * A' ≤ 2 * bound * ((1 + δ) * A) := mul_le_mul_of_nonneg_left ga (by linarith)
  have h3 : 2 * bound * (δ * A) ≤ 1 * (δ * A) := mul_le_mul_of_nonneg_right (by linarith) (mul_nonneg hδ hA)
  linarith

theorem exists_least {α : Type} (f : α → ℝ) (l : List α) (hne : l ≠ []) : ∃ x ∈ l, ∀ y ∈ l, f x ≤ f y := by
  induction l with
  | nil => exact absurd rfl hne
  | cons x l ih =>
    by_cases hl : l = []
    · subst hl
      exact ⟨x, List.mem_cons_self, by simp⟩
    · obtain ⟨y, hy, h⟩ := ih hl
      rcases le_total (f x) (f y) with hxy | hxy
      · refine ⟨x, List.mem_cons_self, fun v hv => ?_⟩
        rcases List.mem_cons.1 hv with rfl | hv
        exacts [le_rfl, hxy.trans (h v hv)]
      · refine ⟨y, List.mem_cons_of_mem _ hy, fun v hv => ?_⟩
        rcases List.mem_cons.1 hv with rfl | hv
        exacts [hxy, h v hv]

/-- C171. The object is described by the exact extents `a ≥ b ≥ c` of its particles (or velocities) along its principal axes, about the exact
mean; each coordinate of the centre used is wrong by at most `ε`. `a ^ 2` over the total mass is the mean square extent along the major
axis, so `δ` is three times the square of `ε` over this extent. -/
theorem C171_centre (R S : Rounding) (β : ℝ) (hβ0 : 0 ≤ β) (cfg : Config) (hsol : BackwardStable β cfg.solver) (hred : cfg.reduced = false)
    (hell : cfg.deltaD = none) (hm : ∀ p ∈ cfg.pts, 0 < p.m) (hne : cfg.pts ≠ []) (htol0 : 0 ≤ cfg.tol) (htol : cfg.tol < 1) (hwall : 2 ≤ cfg.wall)
    (hn : cfg.itMin ≤ cfg.pts.length) (hd : 0 < cfg.d) (a b c : ℝ) (x y z : Vec ℝ) (hp : Principal (centralMoments cfg) a b c x y z)
    (hin : ∀ p ∈ cfg.pts, Periodic.dist p.x cfg.center ≤ c / a * cfg.d / 3)
    (ε : ℝ) (hε : ∀ i, |cfg.srcCenter i - trueMean cfg i| ≤ ε)
    (bound δ : ℝ) (hbound : bound = 72 * (cfg.pts.length + 8) * R.u + 15 * β) (hb : bound ≤ (c / a) ^ 2 / 20)
    (hδ : δ = 3 * ε ^ 2 / (a ^ 2 / (cfg.pts.map Pt.m).sum)) (hδ1 : δ ≤ 1 / 2)
    (fuel : Nat) (hfuel : 3 ≤ fuel) (morph : Morph) :
    ∃ m, roundedRun R S fuel cfg morph = some (some m) ∧ m.d = cfg.d ∧
      |m.q ^ 2 - (b / a) ^ 2| ≤ bound + 12 * δ ∧ |m.s ^ 2 - (c / a) ^ 2| ≤ bound + 12 * δ ∧
      |dot m.major m.major - 1| ≤ 20 * R.u ∧ |dot m.inter m.inter - 1| ≤ 20 * R.u ∧ |dot m.minor m.minor - 1| ≤ 20 * R.u ∧
      (1 - 2 * bound - 2 * δ) * a ^ 2 ≤ centralAlong cfg m.major ∧ centralAlong cfg m.minor ≤ c ^ 2 + (2 * bound + 2 * δ) * a ^ 2 := by
  have hc := hp.pos
  have hb0 : 0 < b := hc.trans_le hp.cb
  have ha : 0 < a := hb0.trans_le hp.ba
  have hA : 0 < a ^ 2 := by positivity
  have hM : 0 < (cfg.pts.map Pt.m).sum := by
    obtain ⟨p, ps, e⟩ := List.exists_cons_of_ne_nil hne
    rw [e] at hm ⊢
    rw [List.map_cons, List.sum_cons]
    refine add_pos_of_pos_of_nonneg (hm p List.mem_cons_self) (List.sum_nonneg ?_)
    intro v hv
    obtain ⟨q, hq, rfl⟩ := List.mem_map.1 hv
    exact (hm q (List.mem_cons_of_mem _ hq)).le
  have hδ0 : 0 ≤ δ := by rw [hδ]; positivity
  have hoff : dot (offCentre cfg) (offCentre cfg) ≤ 3 * ε ^ 2 := by
    have h1 : ∀ i, offCentre cfg i * offCentre cfg i ≤ ε ^ 2 := by
      intro i
      have := mul_self_le_mul_self (abs_nonneg _) (hε i)
      rw [abs_mul_abs_self] at this
      unfold offCentre
      nlinarith
    have := h1 0
    have := h1 1
    have := h1 2
    unfold dot
    linarith
  have hoff' : (cfg.pts.map Pt.m).sum * dot (offCentre cfg) (offCentre cfg) ≤ δ * a ^ 2 := by
    have e : δ * a ^ 2 = (cfg.pts.map Pt.m).sum * (3 * ε ^ 2) := by rw [hδ]; field_simp
    rw [e]
    exact mul_le_mul_of_nonneg_left hoff hM.le
  obtain ⟨a', b', c', x', y', z', hp', ga, ga', gc, gc', nq, ns⟩ := shifted_principal cfg hM hp hoff' hδ0 hδ1
  have hc' := hp'.pos
  have ha' : 0 < a' := (hc'.trans_le hp'.cb).trans_le hp'.ba
  have hA' : 0 < a' ^ 2 := by positivity
  have hratio : 2 / 3 * (c / a) ^ 2 ≤ (c' / a') ^ 2 := by
    rw [div_pow, div_pow, ← mul_div_assoc, div_le_div_iff₀ hA hA']
    have h1 : a' ^ 2 ≤ 3 / 2 * a ^ 2 := by nlinarith
    have hC : 0 < c ^ 2 := by positivity
    have h2 : 2 / 3 * c ^ 2 * a' ^ 2 ≤ 2 / 3 * c ^ 2 * (3 / 2 * a ^ 2) := mul_le_mul_of_nonneg_left h1 (by positivity)
    have h3 : c ^ 2 * a ^ 2 ≤ c' ^ 2 * a ^ 2 := mul_le_mul_of_nonneg_right gc hA.le
    linarith
  have hroot : 2 / 3 * (c / a) ≤ c' / a' := by
    have h0 : 0 ≤ c' / a' := (div_pos hc' ha').le
    have h1 : 0 ≤ (c / a) ^ 2 := sq_nonneg _
    refine abs_le_of_sq_le_sq' ?_ h0 |>.2
    nlinarith
  obtain ⟨m, hrun, md, mq, ms, m1, m2, m3, mx, mz⟩ := C170_whole R S β hβ0 cfg hsol hred hell hm htol0 htol hwall hn hd a' b' c' x' y' z' hp'
    (fun p hpp => by
      refine (hin p hpp).trans ?_
      have := mul_le_mul_of_nonneg_right hroot hd.le
      linarith) bound hbound (by have := sq_nonneg (c' / a'); linarith) fuel hfuel morph
  have hb00 : 0 ≤ bound := by
    rw [hbound]
    have := R.u_nonneg
    positivity
  have hu20 : 20 * R.u ≤ 1 := by
    have hσ : (c / a) ^ 2 ≤ 1 := pow_le_one₀ (div_pos hc ha).le ((div_le_one ha).2 (hp.cb.trans hp.ba))
    have h1 : 576 * R.u ≤ bound := by
      have := mul_nonneg (Nat.cast_nonneg (α := ℝ) cfg.pts.length) R.u_nonneg
      rw [hbound]
      linarith
    have := R.u_nonneg
    linarith
  have hb1 : bound ≤ 1 / 20 := by
    have hσ : (c / a) ^ 2 ≤ 1 := pow_le_one₀ (div_pos hc ha).le ((div_le_one ha).2 (hp.cb.trans hp.ba))
    linarith
  refine ⟨m, hrun, md, ?_, ?_, m1, m2, m3, ?_, ?_⟩
  · have := abs_add_le (m.q ^ 2 - (b' / a') ^ 2) ((b' / a') ^ 2 - (b / a) ^ 2)
    rw [sub_add_sub_cancel] at this
    linarith
  · have := abs_add_le (m.s ^ 2 - (c' / a') ^ 2) ((c' / a') ^ 2 - (c / a) ^ 2)
    rw [sub_add_sub_cancel] at this
    linarith
  · rw [moment_shift cfg hM] at mx
    have h2 : dot m.major m.major ≤ 2 := by
      have := (abs_le.1 m1).2
      linarith
    exact major_end hM.le hb1 ga (dot_sq_le m.major (offCentre cfg)) h2 (dot_nonneg' _) hoff' mx
  · rw [moment_shift cfg hM] at mz
    exact minor_end hb00 hb1 hδ0 hA.le (mul_nonneg hM.le (sq_nonneg (dot m.minor (offCentre cfg)))) ga' gc' mz

/-- Error of the centre of mass, as in C142. -/
theorem com_error (R : Rounding) (cfg : Config) (hpos : ∀ p ∈ cfg.pts, p.src = p.x) (hm : ∀ p ∈ cfg.pts, 0 < p.m)
    (hn : (2 * cfg.pts.length + 3) * R.u ≤ 1 / 2)
    (chosen : List Pt) (hch0 : chosen ≠ []) (hch : ∀ p ∈ chosen, p ∈ cfg.pts) (hchu : (chosen.length + 1) * R.u ≤ 1 / 2) (c : Vec ℝ)
    (hcentre : ∀ i, CoM R (chosen.map fun p => p.x i) (cfg.pts.map fun p => (p.x i, p.m)) (c i))
    (X W : ℝ) (hX : ∀ p ∈ cfg.pts, ∀ i, |p.x i| ≤ X) (hW : ∀ p ∈ cfg.pts, ∀ p' ∈ cfg.pts, ∀ i, p.x i - p'.x i ≤ W) (i : Fin 3) :
    |c i - trueMean cfg i| ≤ R.u * X + 4 * (2 * cfg.pts.length + 3) * R.u * (W + 2 * (chosen.length + 1) * R.u * X) := by
  have hne : cfg.pts ≠ [] := by
    obtain ⟨p, ps, e⟩ := List.exists_cons_of_ne_nil hch0
    exact List.ne_nil_of_mem (hch p (by rw [e]; exact List.mem_cons_self))
  -- the particles with the smallest and largest coordinates
  obtain ⟨pl, hpl, hlo⟩ : ∃ pl ∈ cfg.pts, ∀ p ∈ cfg.pts, pl.x i ≤ p.x i := by
    obtain ⟨q, hq, h⟩ := exists_least (fun p : Pt => p.x i) cfg.pts hne
    exact ⟨q, hq, h⟩
  obtain ⟨ph, hph, hhi⟩ : ∃ ph ∈ cfg.pts, ∀ p ∈ cfg.pts, p.x i ≤ ph.x i := by
    obtain ⟨q, hq, h⟩ := exists_least (fun p : Pt => -p.x i) cfg.pts hne
    exact ⟨q, hq, fun p hp => neg_le_neg_iff.1 (h p hp)⟩
  have key := C142_centre R (chosen.map fun p => p.x i) (by simpa using hch0) (cfg.pts.map fun p => (p.x i, p.m)) (pl.x i) (ph.x i) X
    (by
      intro v hv
      obtain ⟨p, hp, rfl⟩ := List.mem_map.1 hv
      exact ⟨(p.x i, p.m), List.mem_map.2 ⟨p, hch p hp, rfl⟩, rfl⟩)
    (by
      intro v hv
      obtain ⟨p, hp, rfl⟩ := List.mem_map.1 hv
      exact hm p hp)
    (by
      intro v hv
      obtain ⟨p, hp, rfl⟩ := List.mem_map.1 hv
      exact ⟨hlo p hp, hhi p hp⟩)
    (by
      intro v hv
      obtain ⟨p, hp, rfl⟩ := List.mem_map.1 hv
      exact hX p hp i)
    (by rwa [List.length_map])
    (by rwa [List.length_map]) (c i) (hcentre i)
  have e : centreOfMass (cfg.pts.map fun p => (p.x i, p.m)) = trueMean cfg i := by
    unfold centreOfMass trueMean
    rw [List.map_map, List.map_map]
    congr 2
    exact List.map_congr_left fun p hp => by rw [hpos p hp]; rfl
  rw [e, List.length_map, List.length_map] at key
  refine key.trans ?_
  have hw := hW ph hph pl hpl i
  have h1 : 0 ≤ 4 * (2 * (cfg.pts.length : ℝ) + 3) * R.u := mul_nonneg (by positivity) R.u_nonneg
  have := mul_le_mul_of_nonneg_left (show ph.x i - pl.x i + 2 * (chosen.length + 1) * R.u * X ≤ W + 2 * (chosen.length + 1) * R.u * X by linarith) h1
  linarith

/-- C171, for positions: the centre used is the result of `calcCoM`, for whatever particles drawn. -/
theorem C171_positions (R S : Rounding) (β : ℝ) (hβ0 : 0 ≤ β) (cfg : Config) (hsol : BackwardStable β cfg.solver) (hred : cfg.reduced = false)
    (hell : cfg.deltaD = none) (hpos : ∀ p ∈ cfg.pts, p.src = p.x) (hsame : cfg.srcCenter = cfg.center)
    (hm : ∀ p ∈ cfg.pts, 0 < p.m) (htol0 : 0 ≤ cfg.tol) (htol : cfg.tol < 1)
    (hwall : 2 ≤ cfg.wall) (hn : cfg.itMin ≤ cfg.pts.length) (hd : 0 < cfg.d) (a b c : ℝ) (x y z : Vec ℝ)
    (hp : Principal (centralMoments cfg) a b c x y z) (hin : ∀ p ∈ cfg.pts, Periodic.dist p.x cfg.center ≤ c / a * cfg.d / 3)
    (chosen : List Pt) (hch0 : chosen ≠ []) (hch : ∀ p ∈ chosen, p ∈ cfg.pts) (hchu : (chosen.length + 1) * R.u ≤ 1 / 2)
    (hcentre : ∀ i, CoM R (chosen.map fun p => p.x i) (cfg.pts.map fun p => (p.x i, p.m)) (cfg.center i))
    (X W : ℝ) (hX : ∀ p ∈ cfg.pts, ∀ i, |p.x i| ≤ X) (hW : ∀ p ∈ cfg.pts, ∀ p' ∈ cfg.pts, ∀ i, p.x i - p'.x i ≤ W)
    (ε bound δ : ℝ) (hε : ε = R.u * X + 4 * (2 * cfg.pts.length + 3) * R.u * (W + 2 * (chosen.length + 1) * R.u * X))
    (hbound : bound = 72 * (cfg.pts.length + 8) * R.u + 15 * β) (hb : bound ≤ (c / a) ^ 2 / 20)
    (hδ : δ = 3 * ε ^ 2 / (a ^ 2 / (cfg.pts.map Pt.m).sum)) (hδ1 : δ ≤ 1 / 2)
    (fuel : Nat) (hfuel : 3 ≤ fuel) (morph : Morph) :
    ∃ m, roundedRun R S fuel cfg morph = some (some m) ∧ m.d = cfg.d ∧
      |m.q ^ 2 - (b / a) ^ 2| ≤ bound + 12 * δ ∧ |m.s ^ 2 - (c / a) ^ 2| ≤ bound + 12 * δ ∧
      |dot m.major m.major - 1| ≤ 20 * R.u ∧ |dot m.inter m.inter - 1| ≤ 20 * R.u ∧ |dot m.minor m.minor - 1| ≤ 20 * R.u ∧
      (1 - 2 * bound - 2 * δ) * a ^ 2 ≤ centralAlong cfg m.major ∧ centralAlong cfg m.minor ≤ c ^ 2 + (2 * bound + 2 * δ) * a ^ 2 := by
  have hne : cfg.pts ≠ [] := by
    obtain ⟨p, ps, e⟩ := List.exists_cons_of_ne_nil hch0
    exact List.ne_nil_of_mem (hch p (by rw [e]; exact List.mem_cons_self))
  have hc := hp.pos
  have ha : 0 < a := (hc.trans_le hp.cb).trans_le hp.ba
  have hσ : (c / a) ^ 2 ≤ 1 := pow_le_one₀ (div_pos hc ha).le ((div_le_one ha).2 (hp.cb.trans hp.ba))
  refine C171_centre R S β hβ0 cfg hsol hred hell hm hne htol0 htol hwall hn hd a b c x y z hp hin ε ?_ bound δ hbound hb hδ hδ1 fuel hfuel morph
  intro i
  rw [hsame, hε]
  refine com_error R cfg hpos hm ?_ chosen hch0 hch hchu cfg.center hcentre X W hX hW i
  have h1 := mul_nonneg (Nat.cast_nonneg (α := ℝ) cfg.pts.length) R.u_nonneg
  have h2 := R.u_nonneg
  linarith

/-- C171, for velocities: the centre used is the result of `CythonHelpers.calcCoM`. Its error is one of single precision, relative to the
largest velocity. -/
theorem C171_velocities (R S : Rounding) (hRS : R.u ≤ S.u) (β : ℝ) (hβ0 : 0 ≤ β) (cfg : Config) (hsol : BackwardStable β cfg.solver)
    (hred : cfg.reduced = false) (hell : cfg.deltaD = none) (hm : ∀ p ∈ cfg.pts, 0 < p.m) (hne : cfg.pts ≠ []) (htol0 : 0 ≤ cfg.tol)
    (htol : cfg.tol < 1) (hwall : 2 ≤ cfg.wall) (hn : cfg.itMin ≤ cfg.pts.length) (hd : 0 < cfg.d) (a b c : ℝ) (x y z : Vec ℝ)
    (hp : Principal (centralMoments cfg) a b c x y z) (hin : ∀ p ∈ cfg.pts, Periodic.dist p.x cfg.center ≤ c / a * cfg.d / 3)
    (hcentre : cfg.srcCenter = cyMean R S (cfg.pts.map fun p => ⟨p.src, p.m⟩)) (hnu : 3 * (cfg.pts.length + 1) * S.u ≤ 1 / 2)
    (V : ℝ) (hV : ∀ p ∈ cfg.pts, ∀ i, |p.src i| ≤ V)
    (ε bound δ : ℝ) (hε : ε = 6 * (cfg.pts.length + 1) * S.u * V)
    (hbound : bound = 72 * (cfg.pts.length + 8) * R.u + 15 * β) (hb : bound ≤ (c / a) ^ 2 / 20)
    (hδ : δ = 3 * ε ^ 2 / (a ^ 2 / (cfg.pts.map Pt.m).sum)) (hδ1 : δ ≤ 1 / 2)
    (fuel : Nat) (hfuel : 3 ≤ fuel) (morph : Morph) :
    ∃ m, roundedRun R S fuel cfg morph = some (some m) ∧ m.d = cfg.d ∧
      |m.q ^ 2 - (b / a) ^ 2| ≤ bound + 12 * δ ∧ |m.s ^ 2 - (c / a) ^ 2| ≤ bound + 12 * δ ∧
      |dot m.major m.major - 1| ≤ 20 * R.u ∧ |dot m.inter m.inter - 1| ≤ 20 * R.u ∧ |dot m.minor m.minor - 1| ≤ 20 * R.u ∧
      (1 - 2 * bound - 2 * δ) * a ^ 2 ≤ centralAlong cfg m.major ∧ centralAlong cfg m.minor ≤ c ^ 2 + (2 * bound + 2 * δ) * a ^ 2 := by
  refine C171_centre R S β hβ0 cfg hsol hred hell hm hne htol0 htol hwall hn hd a b c x y z hp hin ε ?_ bound δ hbound hb hδ hδ1 fuel hfuel morph
  intro i
  have key := C157_mean_partial R S hRS (cfg.pts.map fun p => ⟨p.src, p.m⟩) (by
      intro v hv
      obtain ⟨p, hp, rfl⟩ := List.mem_map.1 hv
      exact (hm p hp).le) (by rw [List.length_map]; push_cast; exact hnu) i
  rw [← hcentre, List.length_map] at key
  simp only [List.map_map] at key
  have hM : 0 < (cfg.pts.map Pt.m).sum := by
    obtain ⟨p, ps, e⟩ := List.exists_cons_of_ne_nil hne
    rw [e] at hm ⊢
    rw [List.map_cons, List.sum_cons]
    refine add_pos_of_pos_of_nonneg (hm p List.mem_cons_self) (List.sum_nonneg ?_)
    intro v hv
    obtain ⟨q, hq, rfl⟩ := List.mem_map.1 hv
    exact (hm q (List.mem_cons_of_mem _ hq)).le
  have hle : (cfg.pts.map fun p => p.m * |p.src i|).sum ≤ (cfg.pts.map Pt.m).sum * V := by
    clear key hcentre hM hne hn hin hp hnu hb hbound hδ hε
    revert hm hV
    generalize cfg.pts = ps
    intro hm hV
    induction ps with
    | nil => simp
    | cons p ps ih =>
      have h1 := ih (fun q hq => hm q (List.mem_cons_of_mem _ hq)) fun q hq => hV q (List.mem_cons_of_mem _ hq)
      have h2 := mul_le_mul_of_nonneg_left (hV p List.mem_cons_self i) (hm p List.mem_cons_self).le
      simp only [List.map_cons, List.sum_cons]
      linarith
  have hdiv : (cfg.pts.map fun p => p.m * |p.src i|).sum / (cfg.pts.map Pt.m).sum ≤ V := by
    rw [div_le_iff₀ hM]
    linarith
  have h6 : 0 ≤ 6 * ((cfg.pts.length : ℝ) + 1) * S.u := mul_nonneg (by positivity) S.u_nonneg
  rw [hε]
  exact key.trans (mul_le_mul_of_nonneg_left hdiv h6)

/-! ## Example -/

theorem axis_mean (sol : Solver) (c c' : Vec ℝ) (i : Fin 3) : trueMean { axisCfg sol with center := c, srcCenter := c' } i = 0 := by
  unfold trueMean
  fin_cases i <;> simp [axisCfg]

theorem axis_central (sol : Solver) (c c' : Vec ℝ) :
    centralMoments { axisCfg sol with center := c, srcCenter := c' } = secondMoments (axisCfg sol) := by
  funext i j
  unfold centralMoments secondMoments
  rw [axis_mean, axis_mean]
  rfl

/-- The six particles on the axes: with double precision throughout, including the centre of mass, the axis ratios 2/3 and 1/3 are found to ten
digits. -/
example (sol : Solver) (hsol : GoodSolver sol) :
    ∃ (c : Vec ℝ) (m : Morph), (∀ i, CoM float64 ((axisCfg sol).pts.map fun p => p.x i) ((axisCfg sol).pts.map fun p => (p.x i, p.m)) (c i)) ∧
      roundedRun float64 float32 3 { axisCfg sol with center := c, srcCenter := c } .zero = some (some m) ∧
      |m.q ^ 2 - 4 / 9| ≤ 1 / 10 ^ 10 ∧ |m.s ^ 2 - 1 / 9| ≤ 1 / 10 ^ 10 := by
  have hu : float64.u = 1 / 2 ^ 53 := by rw [show float64.u = (1 / 2) ^ 53 from rfl]; norm_num
  have h2 : 0 < √(2 : ℝ) := by positivity
  have e1 : √(2 : ℝ) / (3 * √2) = 1 / 3 := by field_simp
  have e2 : 2 * √(2 : ℝ) / (3 * √2) = 2 / 3 := by field_simp
  have hlen : (axisCfg sol).pts.length = 6 := rfl
  have hx : ∀ p ∈ (axisCfg sol).pts, ∀ i, |p.x i| ≤ 3 := by
    intro p hp i
    simp only [axisCfg, List.mem_cons, List.not_mem_nil, or_false] at hp
    rcases hp with rfl | rfl | rfl | rfl | rfl | rfl <;> fin_cases i <;> simp <;> norm_num
  have hmass : ∀ p ∈ (axisCfg sol).pts, 0 < p.m := by simp [axisCfg]
  have hsum : ((axisCfg sol).pts.map Pt.m).sum = 6 := by simp [axisCfg]; norm_num
  choose c hc using fun i => com_exists float64 ((axisCfg sol).pts.map fun p => p.x i) ((axisCfg sol).pts.map fun p => (p.x i, p.m))
  have hcs : ∀ i, |c i| ≤ 1 := by
    intro i
    have := C142_centre float64 ((axisCfg sol).pts.map fun p => p.x i) (by simp [axisCfg]) ((axisCfg sol).pts.map fun p => (p.x i, p.m)) (-3) 3 3
      (by
        intro v hv
        obtain ⟨p, hp, rfl⟩ := List.mem_map.1 hv
        exact ⟨(p.x i, p.m), List.mem_map.2 ⟨p, hp, rfl⟩, rfl⟩)
      (by
        intro v hv
        obtain ⟨p, hp, rfl⟩ := List.mem_map.1 hv
        exact hmass p hp)
      (by
        intro v hv
        obtain ⟨p, hp, rfl⟩ := List.mem_map.1 hv
        exact abs_le.1 (hx p hp i))
      (by
        intro v hv
        obtain ⟨p, hp, rfl⟩ := List.mem_map.1 hv
        exact hx p hp i)
      (by rw [List.length_map, hlen, hu]; norm_num) (by rw [List.length_map, hlen, hu]; norm_num) (c i) (hc i)
    have e : centreOfMass ((axisCfg sol).pts.map fun p => (p.x i, p.m)) = 0 := by
      unfold centreOfMass
      fin_cases i <;> simp [axisCfg]
    rw [e, sub_zero, List.length_map, List.length_map, hlen, hu] at this
    refine this.trans ?_
    norm_num
  obtain ⟨m, hrun, -, hq, hs, -⟩ := C171_positions float64 float32 0 le_rfl { axisCfg sol with center := c, srcCenter := c } (GoodSolver.stable hsol)
    rfl rfl (by simp [axisCfg]) rfl hmass (by simp only [axisCfg]; norm_num) (by simp only [axisCfg]; norm_num) (by simp only [axisCfg]; norm_num)
    (by simp [axisCfg]) (by simp only [axisCfg]; norm_num) (3 * √2) (2 * √2) √2 ![1, 0, 0] ![0, 1, 0] ![0, 0, 1]
    (by rw [axis_central]; exact axisCfg_principal sol)
    (by
      intro p hp
      have h1 : Periodic.dist p.x c ≤ 7 := by
        unfold Periodic.dist
        rw [Real.sqrt_le_iff]
        refine ⟨by norm_num, ?_⟩
        have h : ∀ i, (p.x i - c i) ^ 2 ≤ 16 := by
          intro i
          have h3 := abs_le.1 (hx p hp i)
          have h4 := abs_le.1 (hcs i)
          nlinarith
        have := h 0
        have := h 1
        have := h 2
        linarith
      refine h1.trans ?_
      rw [e1]
      simp only [axisCfg]
      norm_num)
    (axisCfg sol).pts (by simp [axisCfg]) (fun p hp => hp) (by rw [hlen, hu]; norm_num) hc 3 6 hx
    (by
      intro p hp p' hp' i
      have h3 := abs_le.1 (hx p hp i)
      have h4 := abs_le.1 (hx p' hp' i)
      linarith) _ _ _ rfl rfl (by
        show 72 * (((axisCfg sol).pts.length : ℝ) + 8) * float64.u + 15 * 0 ≤ _
        rw [hu, e1, hlen]; norm_num) rfl
    (by
      show 3 * (float64.u * 3 + 4 * (2 * ((axisCfg sol).pts.length : ℝ) + 3) * float64.u * (6 + 2 * (((axisCfg sol).pts.length : ℝ) + 1) * float64.u * 3)) ^ 2 /
        ((3 * √2) ^ 2 / ((axisCfg sol).pts.map Pt.m).sum) ≤ 1 / 2
      rw [hu, hlen, hsum, mul_pow, Real.sq_sqrt (by norm_num)]
      norm_num) 3 le_rfl .zero
  change |m.q ^ 2 - (2 * √2 / (3 * √2)) ^ 2| ≤ 72 * (((axisCfg sol).pts.length : ℝ) + 8) * float64.u + 15 * 0 +
    12 * (3 * (float64.u * 3 + 4 * (2 * ((axisCfg sol).pts.length : ℝ) + 3) * float64.u * (6 + 2 * (((axisCfg sol).pts.length : ℝ) + 1) * float64.u * 3)) ^ 2 /
        ((3 * √2) ^ 2 / ((axisCfg sol).pts.map Pt.m).sum)) at hq
  change |m.s ^ 2 - (√2 / (3 * √2)) ^ 2| ≤ 72 * (((axisCfg sol).pts.length : ℝ) + 8) * float64.u + 15 * 0 +
    12 * (3 * (float64.u * 3 + 4 * (2 * ((axisCfg sol).pts.length : ℝ) + 3) * float64.u * (6 + 2 * (((axisCfg sol).pts.length : ℝ) + 1) * float64.u * 3)) ^ 2 /
        ((3 * √2) ^ 2 / ((axisCfg sol).pts.map Pt.m).sum)) at hs
  rw [e2, hu, hlen, hsum, mul_pow 3, Real.sq_sqrt (by norm_num)] at hq
  rw [e1, hu, hlen, hsum, mul_pow 3, Real.sq_sqrt (by norm_num)] at hs
  refine ⟨c, m, hc, hrun, ?_, ?_⟩
  · refine (le_of_eq ?_).trans (hq.trans (by norm_num))
    norm_num
  · refine (le_of_eq ?_).trans (hs.trans (by norm_num))
    norm_num

/-- The same for velocities equal to the positions; the mean velocity is computed in single precision. -/
example (sol : Solver) (hsol : GoodSolver sol) :
    ∃ m, roundedRun float64 float32 3
        { axisCfg sol with srcCenter := cyMean float64 float32 ((axisCfg sol).pts.map fun p => ⟨p.src, p.m⟩) } .zero = some (some m) ∧
      |m.q ^ 2 - 4 / 9| ≤ 1 / 10 ^ 8 ∧ |m.s ^ 2 - 1 / 9| ≤ 1 / 10 ^ 8 := by
  have hu : float64.u = 1 / 2 ^ 53 := by rw [show float64.u = (1 / 2) ^ 53 from rfl]; norm_num
  have hs : float32.u = 1 / 2 ^ 24 := by rw [show float32.u = (1 / 2) ^ 24 from rfl]; norm_num
  have h2 : 0 < √(2 : ℝ) := by positivity
  have e1 : √(2 : ℝ) / (3 * √2) = 1 / 3 := by field_simp
  have e2 : 2 * √(2 : ℝ) / (3 * √2) = 2 / 3 := by field_simp
  have hlen : (axisCfg sol).pts.length = 6 := rfl
  have hx : ∀ p ∈ (axisCfg sol).pts, ∀ i, |p.src i| ≤ 3 := by
    intro p hp i
    simp only [axisCfg, List.mem_cons, List.not_mem_nil, or_false] at hp
    rcases hp with rfl | rfl | rfl | rfl | rfl | rfl <;> fin_cases i <;> simp <;> norm_num
  have hsum : ((axisCfg sol).pts.map Pt.m).sum = 6 := by simp [axisCfg]; norm_num
  obtain ⟨m, hrun, -, hq, hs', -⟩ := C171_velocities float64 float32 (by rw [hu, hs]; norm_num) 0 le_rfl
    { axisCfg sol with srcCenter := cyMean float64 float32 ((axisCfg sol).pts.map fun p => ⟨p.src, p.m⟩) } (GoodSolver.stable hsol)
    rfl rfl (by simp [axisCfg]) (by simp [axisCfg]) (by simp only [axisCfg]; norm_num) (by simp only [axisCfg]; norm_num)
    (by simp only [axisCfg]; norm_num) (by simp [axisCfg]) (by simp only [axisCfg]; norm_num) (3 * √2) (2 * √2) √2 ![1, 0, 0] ![0, 1, 0] ![0, 0, 1]
    (by
      have := axis_central sol (axisCfg sol).center (cyMean float64 float32 ((axisCfg sol).pts.map fun p => ⟨p.src, p.m⟩))
      exact this ▸ axisCfg_principal sol)
    (by
      rw [e1]
      intro p hp
      have h1 : Periodic.dist p.x 0 ≤ 3 := by
        unfold Periodic.dist
        rw [Real.sqrt_le_iff]
        refine ⟨by norm_num, ?_⟩
        simp only [axisCfg, List.mem_cons, List.not_mem_nil, or_false] at hp
        rcases hp with rfl | rfl | rfl | rfl | rfl | rfl <;> simp <;> norm_num
      refine h1.trans ?_
      simp only [axisCfg]
      norm_num) rfl (by
        show 3 * (((axisCfg sol).pts.length : ℝ) + 1) * float32.u ≤ 1 / 2
        rw [hlen, hs]; norm_num) 3 hx _ _ _ rfl rfl (by
        show 72 * (((axisCfg sol).pts.length : ℝ) + 8) * float64.u + 15 * 0 ≤ _
        rw [hu, e1, hlen]; norm_num) rfl
    (by
      show 3 * (6 * (((axisCfg sol).pts.length : ℝ) + 1) * float32.u * 3) ^ 2 / ((3 * √2) ^ 2 / ((axisCfg sol).pts.map Pt.m).sum) ≤ 1 / 2
      rw [hs, hlen, hsum, mul_pow 3, Real.sq_sqrt (by norm_num)]
      norm_num) 3 le_rfl .zero
  change |m.q ^ 2 - (2 * √2 / (3 * √2)) ^ 2| ≤ 72 * (((axisCfg sol).pts.length : ℝ) + 8) * float64.u + 15 * 0 +
    12 * (3 * (6 * (((axisCfg sol).pts.length : ℝ) + 1) * float32.u * 3) ^ 2 / ((3 * √2) ^ 2 / ((axisCfg sol).pts.map Pt.m).sum)) at hq
  change |m.s ^ 2 - (√2 / (3 * √2)) ^ 2| ≤ 72 * (((axisCfg sol).pts.length : ℝ) + 8) * float64.u + 15 * 0 +
    12 * (3 * (6 * (((axisCfg sol).pts.length : ℝ) + 1) * float32.u * 3) ^ 2 / ((3 * √2) ^ 2 / ((axisCfg sol).pts.map Pt.m).sum)) at hs'
  rw [e2, hu, hs, hlen, hsum, mul_pow 3, Real.sq_sqrt (by norm_num)] at hq
  rw [e1, hu, hs, hlen, hsum, mul_pow 3, Real.sq_sqrt (by norm_num)] at hs'
  refine ⟨m, hrun, ?_, ?_⟩
  · refine (le_of_eq ?_).trans (hq.trans (by norm_num))
    norm_num
  · refine (le_of_eq ?_).trans (hs'.trans (by norm_num))
    norm_num

end Verif.Round
