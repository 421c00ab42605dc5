import Verif.Round.TrueCentre

/-!
# Global shapes from inexact coordinates (C172)

Coordinates and velocities reach the iteration with errors: snapshots store them in single precision, the constructor converts units
(cosmic_base_class.pyx:55-63), objects are unwrapped (python_routines.py:510-526).
-/

namespace Verif.Round

open Verif.Shapes
open Verif (Vec Particle)

/-! ## Specification -/

/-- The vectors entering the tensor are those of the particles `exact` up to `η` in each component; the masses agree. -/
def Inexact (η : ℝ) (exact pts : List Pt) : Prop := List.Forall₂ (fun t p => p.m = t.m ∧ ∀ i, |p.src i - t.src i| ≤ η) exact pts

/-! ## Proof -/

/-- The moment about the mean is the smallest one. -/
theorem central_le (cfg : Config) (hM : 0 < (cfg.pts.map Pt.m).sum) (c v : Vec ℝ) :
    centralAlong cfg v ≤ (cfg.pts.map fun p => p.m * (dot v fun i => p.src i - c i) ^ 2).sum := by
  have h := moment_shift { cfg with srcCenter := c } hM v
  have h1 : momentAlong { cfg with srcCenter := c } v = (cfg.pts.map fun p => p.m * (dot v fun i => p.src i - c i) ^ 2).sum := rfl
  have h2 : centralAlong { cfg with srcCenter := c } v = centralAlong cfg v := rfl
  rw [← h1, h, h2]
  have := mul_nonneg hM.le (sq_nonneg (dot v (offCentre { cfg with srcCenter := c })))
  exact le_add_of_nonneg_right this

theorem forall₂_mass {η : ℝ} {ex pts : List Pt} (h : Inexact η ex pts) : pts.map Pt.m = ex.map Pt.m := by
  induction h with
  | nil => rfl
  | cons h _ ih => rw [List.map_cons, List.map_cons, ih, h.1]

/-- Errors of the components change a mean square only by their size. -/
theorem moment_inexact {η : ℝ} {ex pts : List Pt} (h : Inexact η ex pts) (hm : ∀ p ∈ ex, 0 ≤ p.m) (c v : Vec ℝ) {t : ℝ} (ht : 0 < t) :
    (pts.map fun p => p.m * (dot v fun i => p.src i - c i) ^ 2).sum ≤ (1 + t) * (ex.map fun p => p.m * (dot v fun i => p.src i - c i) ^ 2).sum +
      (1 + t⁻¹) * ((ex.map Pt.m).sum * (3 * η ^ 2) * dot v v) := by
  induction h with
  | nil => simp
  | @cons a p ex pts h _ ih =>
    have h1 := ih fun q hq => hm q (List.mem_cons_of_mem _ hq)
    have ha := hm a List.mem_cons_self
    simp only [List.map_cons, List.sum_cons]
    obtain ⟨hpm, hp⟩ := h
    rw [hpm]
    set X := dot v fun i => a.src i - c i with hX
    set D := dot v fun i => p.src i - a.src i with hD
    have e : (dot v fun i => p.src i - c i) = X + D := by rw [hX, hD]; unfold dot; ring
    rw [e]
    have k : (X + D) ^ 2 ≤ (1 + t) * X ^ 2 + (1 + t⁻¹) * D ^ 2 := by
      have h2 : (1 + t) * X ^ 2 + (1 + t⁻¹) * D ^ 2 - (X + D) ^ 2 = t⁻¹ * (t * X - D) ^ 2 := by field_simp; ring
      have h3 : 0 ≤ t⁻¹ * (t * X - D) ^ 2 := by positivity
      linarith
    have hD2 : D ^ 2 ≤ 3 * η ^ 2 * dot v v := by
      have h4 := dot_sq_le v fun i => p.src i - a.src i
      have h5 : ∀ i, (p.src i - a.src i) * (p.src i - a.src i) ≤ η ^ 2 := by
        intro i
        have := mul_self_le_mul_self (abs_nonneg _) (hp i)
        rw [abs_mul_abs_self] at this
        rwa [sq]
      have h6 : dot (fun i => p.src i - a.src i) (fun i => p.src i - a.src i) ≤ 3 * η ^ 2 := by
        have := h5 0
        have := h5 1
        have := h5 2
        unfold dot
        linarith
      have := mul_le_mul_of_nonneg_left h6 (dot_nonneg' v)
      linarith
    have h7 := mul_le_mul_of_nonneg_left hD2 (show 0 ≤ 1 + t⁻¹ by positivity)
    have := mul_le_mul_of_nonneg_left (k.trans (add_le_add le_rfl h7)) ha
    nlinarith

theorem inexact_symm {η : ℝ} {ex pts : List Pt} (h : Inexact η ex pts) : Inexact η pts ex := by
  induction h with
  | nil => exact .nil
  | cons h _ ih => exact .cons ⟨h.1.symm, fun i => by rw [abs_sub_comm]; exact h.2 i⟩ ih

/-- Moments about the means. -/
theorem central_near (cfg : Config) (ex : List Pt) {η : ℝ} (h : Inexact η ex cfg.pts) (hm : ∀ p ∈ ex, 0 ≤ p.m)
    (hM : 0 < (ex.map Pt.m).sum) {A ρ : ℝ} (hA0 : 0 < A) (hA : ∀ v, centralAlong { cfg with pts := ex } v ≤ A * dot v v) (hρ0 : 0 < ρ) (hρ1 : ρ ≤ 1)
    (hρ : (ex.map Pt.m).sum * (3 * η ^ 2) ≤ ρ ^ 2 * A) (v : Vec ℝ) :
    |centralAlong cfg v - centralAlong { cfg with pts := ex } v| ≤ 3 * ρ * A * dot v v := by
  have hmass := forall₂_mass h
  have hM' : 0 < (cfg.pts.map Pt.m).sum := by rwa [hmass]
  have hm' : ∀ p ∈ cfg.pts, 0 ≤ p.m := by
    intro p hp
    have : p.m ∈ ex.map Pt.m := by rw [← hmass]; exact List.mem_map_of_mem hp
    obtain ⟨q, hq, e⟩ := List.mem_map.1 this
    rw [← e]
    exact hm q hq
  have hv := dot_nonneg' v
  have hrest : (1 + ρ⁻¹) * ((ex.map Pt.m).sum * (3 * η ^ 2) * dot v v) ≤ (ρ ^ 2 + ρ) * A * dot v v := by
    have h1 := mul_le_mul_of_nonneg_left (mul_le_mul_of_nonneg_right hρ hv) (show 0 ≤ 1 + ρ⁻¹ by positivity)
    have e : (1 + ρ⁻¹) * (ρ ^ 2 * A * dot v v) = (ρ ^ 2 + ρ) * A * dot v v := by field_simp
    linarith
  have hAv := mul_nonneg hA0.le hv
  have hρρ : ρ ^ 2 * (A * dot v v) ≤ ρ * (A * dot v v) := mul_le_mul_of_nonneg_right (by nlinarith) hAv
  have hcen := hA v
  rw [abs_le]
  constructor
  · have h1 := central_le { cfg with pts := ex } hM (trueMean cfg) v
    have h2 := moment_inexact (inexact_symm h) hm' (trueMean cfg) v hρ0
    rw [hmass] at h2
    have e : (cfg.pts.map fun p => p.m * (dot v fun i => p.src i - trueMean cfg i) ^ 2).sum = centralAlong cfg v := rfl
    rw [e] at h2
    have h3 := h1.trans h2
    have h4 : centralAlong { cfg with pts := ex } v ≤ (1 + ρ) * centralAlong cfg v + (ρ ^ 2 + ρ) * A * dot v v := by linarith
    by_contra hcon
    push Not at hcon
    have h5 : (1 + ρ) * centralAlong cfg v < (1 + ρ) * (centralAlong { cfg with pts := ex } v - 3 * ρ * A * dot v v) :=
      mul_lt_mul_of_pos_left (by linarith) (by linarith)
    have h6 : ρ * centralAlong { cfg with pts := ex } v ≤ ρ * (A * dot v v) := mul_le_mul_of_nonneg_left hcen hρ0.le
    nlinarith
  · have h1 := central_le cfg hM' (trueMean { cfg with pts := ex }) v
    have h2 := moment_inexact h hm (trueMean { cfg with pts := ex }) v hρ0
    have e : (ex.map fun p => p.m * (dot v fun i => p.src i - trueMean { cfg with pts := ex } i) ^ 2).sum = centralAlong { cfg with pts := ex } v := rfl
    rw [e] at h2
    have h3 := h1.trans h2
    have h6 : ρ * centralAlong { cfg with pts := ex } v ≤ ρ * (A * dot v v) := mul_le_mul_of_nonneg_left hcen hρ0.le
    nlinarith

/-- Principal axes of the inexact particles, compared with those of the exact ones. -/
theorem inexact_principal (cfg : Config) (ex : List Pt) {η : ℝ} (h : Inexact η ex cfg.pts) (hm : ∀ p ∈ ex, 0 ≤ p.m)
    (hM : 0 < (ex.map Pt.m).sum) {a b c : ℝ} {x y z : Vec ℝ} (hp : Principal (centralMoments { cfg with pts := ex }) a b c x y z) {ρ : ℝ}
    (hρ0 : 0 < ρ) (hρ1 : 36 * ρ ≤ (c / a) ^ 2 / 10) (hρ : (ex.map Pt.m).sum * (3 * η ^ 2) ≤ ρ ^ 2 * a ^ 2) :
    (∀ v, |centralAlong cfg v - centralAlong { cfg with pts := ex } v| ≤ 3 * ρ * a ^ 2 * dot v v) ∧
    ∃ a' b' c' x' y' z', Principal (centralMoments cfg) a' b' c' x' y' z' ∧ (1 - 3 * ρ) * a ^ 2 ≤ a' ^ 2 ∧ a' ^ 2 ≤ (1 + 3 * ρ) * a ^ 2 ∧
      c' ^ 2 ≤ c ^ 2 + 3 * ρ * a ^ 2 ∧ |(b' / a') ^ 2 - (b / a) ^ 2| ≤ 36 * ρ ∧ |(c' / a') ^ 2 - (c / a) ^ 2| ≤ 36 * ρ := by
  have hc := hp.pos
  have ha : 0 < a := (hc.trans_le hp.cb).trans_le hp.ba
  have hA : 0 < a ^ 2 := by positivity
  have hσ : (c / a) ^ 2 ≤ 1 := pow_le_one₀ (div_pos hc ha).le ((div_le_one ha).2 (hp.cb.trans hp.ba))
  have hσe : (c / a) ^ 2 * a ^ 2 = c ^ 2 := by rw [div_pow, div_mul_cancel₀ _ hA.ne']
  have hρ2 : ρ ≤ 1 / 360 := by linarith
  have near := central_near cfg ex h hm hM hA (fun v => by rw [central_eq]; exact (principal_form hp v).2) hρ0 (by linarith) hρ
  have near' : ∀ v, |form (centralMoments cfg) v - form (centralMoments { cfg with pts := ex }) v| ≤ 3 * ρ * a ^ 2 * dot v v := by
    intro v
    rw [← central_eq, ← central_eq]
    exact near v
  have h3 : 3 * ρ * a ^ 2 ≤ c ^ 2 / 2 := by
    have := mul_le_mul_of_nonneg_right hρ1 hA.le
    have : 0 < c ^ 2 := by positivity
    nlinarith
  obtain ⟨a', b', c', x', y', z', hp'⟩ := principal_exists (t := centralMoments cfg) (k := c ^ 2 / 2)
    (fun i j => by unfold centralMoments; congr 1; exact List.map_congr_left fun p _ => by ring) (by positivity) (by
      intro v
      have h1 := (principal_form hp v).1
      have h2 := (abs_le.1 (near' v)).1
      have h4 := mul_le_mul_of_nonneg_right h3 (dot_nonneg' v)
      linarith)
  obtain ⟨v1, v2, v3, v4⟩ := principal_vals hp
  obtain ⟨w1, w2, w3, w4⟩ := principal_vals hp'
  obtain ⟨-, n1, n0⟩ := ratios_near (principal_eigen hp) (principal_eigen hp') (δ := 3 * ρ) (by linarith) (by linarith)
    (by show 0 ≤ c ^ 2; positivity) (by show 0 < a ^ 2; exact hA) near'
  change |b' ^ 2 / a' ^ 2 - b ^ 2 / a ^ 2| ≤ _ at n1
  change |c' ^ 2 / a' ^ 2 - c ^ 2 / a ^ 2| ≤ _ at n0
  rw [← div_pow, ← div_pow] at n1 n0
  refine ⟨near, a', b', c', x', y', z', hp', ?_, ?_, ?_, by linarith, by linarith⟩
  · have h1 := (abs_le.1 (near' x)).1
    have h2 := (principal_form hp' x).2
    rw [v2, mul_one] at h2 h1
    linarith
  · have h1 := (abs_le.1 (near' x')).2
    have h2 := (principal_form hp x').2
    rw [w2, mul_one] at h2 h1
    linarith
  · have h1 := (abs_le.1 (near' z)).2
    have h2 := (principal_form hp' z).1
    rw [v4, mul_one] at h2 h1
    linarith

theorem major_last {bound δ δ' ρ A A' C C' n : ℝ} (hb0 : 0 ≤ bound) (hb1 : bound ≤ 1 / 20) (hδ0 : 0 ≤ δ') (hδ' : δ' ≤ 4 / 3 * δ) (hδ1 : δ ≤ 1 / 4)
    (hρ0 : 0 ≤ ρ) (hA : 0 ≤ A) (ga : (1 - 3 * ρ) * A ≤ A') (hn : n ≤ 2) (near : C' ≤ C + 3 * ρ * A * n)
    (mx : (1 - 2 * bound - 2 * δ') * A' ≤ C') : (1 - 2 * bound - 3 * δ - 9 * ρ) * A ≤ C := by
  have h1 : (1 - 2 * bound - 2 * δ') * ((1 - 3 * ρ) * A) ≤ (1 - 2 * bound - 2 * δ') * A' := mul_le_mul_of_nonneg_left ga (by linarith)
  have hρA := mul_nonneg hρ0 hA
  have h2 : ρ * A * n ≤ ρ * A * 2 := mul_le_mul_of_nonneg_left hn hρA
  have h3 : (1 - 2 * bound - 2 * δ') * (ρ * A) ≤ 1 * (ρ * A) := mul_le_mul_of_nonneg_right (by linarith) hρA
  have h4 : δ' * A ≤ 4 / 3 * δ * A := mul_le_mul_of_nonneg_right hδ' hA
  have h5 : 0 ≤ δ * A := mul_nonneg (by linarith) hA
  linarith

theorem minor_last {bound δ δ' ρ A A' C C' F F' n : ℝ} (hb0 : 0 ≤ bound) (hb1 : bound ≤ 1 / 20) (hδ0 : 0 ≤ δ') (hδ' : δ' ≤ 4 / 3 * δ) (hδ1 : δ ≤ 1 / 4)
    (hρ0 : 0 ≤ ρ) (hA : 0 ≤ A) (ga : A' ≤ (1 + 3 * ρ) * A) (gc : C' ≤ C + 3 * ρ * A) (hn : n ≤ 2) (near : F ≤ F' + 3 * ρ * A * n)
    (mz : F' ≤ C' + (2 * bound + 2 * δ') * A') : F ≤ C + (2 * bound + 3 * δ + 13 * ρ) * A := by
  have h1 : (2 * bound + 2 * δ') * A' ≤ (2 * bound + 2 * δ') * ((1 + 3 * ρ) * A) := mul_le_mul_of_nonneg_left ga (by linarith)
  have hρA := mul_nonneg hρ0 hA
  have h2 : ρ * A * n ≤ ρ * A * 2 := mul_le_mul_of_nonneg_left hn hρA
  have h3 : (2 * bound + 2 * δ') * (ρ * A) ≤ (1 / 10 + 2 / 3) * (ρ * A) := mul_le_mul_of_nonneg_right (by linarith) hρA
  have h4 : δ' * A ≤ 4 / 3 * δ * A := mul_le_mul_of_nonneg_right hδ' hA
  have h5 : 0 ≤ δ * A := mul_nonneg (by linarith) hA
  linarith

/-- C172. The object is described by the exact extents `a ≥ b ≥ c` along its principal axes of the particles `ex`, whose coordinates (or velocities) are
known up to `η` in each component; `ρ` is an upper bound of `√3 η` in units of the extent along the major axis. `ε` and `δ` as in C171. -/
theorem C172_inexact (R S : Rounding) (β : ℝ) (hβ0 : 0 ≤ β) (cfg : Config) (hsol : BackwardStable β cfg.solver) (hred : cfg.reduced = false)
    (hell : cfg.deltaD = none) (ex : List Pt) (hm : ∀ p ∈ ex, 0 < p.m) (hne : ex ≠ []) (η : ℝ) (hη : Inexact η ex cfg.pts)
    (htol0 : 0 ≤ cfg.tol) (htol : cfg.tol < 1) (hwall : 2 ≤ cfg.wall)
    (hn : cfg.itMin ≤ cfg.pts.length) (hd : 0 < cfg.d) (a b c : ℝ) (x y z : Vec ℝ) (hp : Principal (centralMoments { cfg with pts := ex }) a b c x y z)
    (hin : ∀ p ∈ cfg.pts, Periodic.dist p.x cfg.center ≤ c / a * cfg.d / 4)
    (ρ : ℝ) (hρ0 : 0 < ρ) (hρ : 3 * η ^ 2 ≤ ρ ^ 2 * (a ^ 2 / (ex.map Pt.m).sum)) (hρ1 : 36 * ρ ≤ (c / a) ^ 2 / 10)
    (ε : ℝ) (hε : ∀ i, |cfg.srcCenter i - trueMean cfg i| ≤ ε)
    (bound δ : ℝ) (hbound : bound = 72 * (cfg.pts.length + 8) * R.u + 15 * β) (hb : bound ≤ (c / a) ^ 2 / 25)
    (hδ : δ = 3 * ε ^ 2 / (a ^ 2 / (ex.map Pt.m).sum)) (hδ1 : δ ≤ 1 / 4)
    (fuel : Nat) (hfuel : 3 ≤ fuel) (morph : Morph) :
    ∃ m, roundedRun R S fuel cfg morph = some (some m) ∧ m.d = cfg.d ∧
      |m.q ^ 2 - (b / a) ^ 2| ≤ bound + 16 * δ + 36 * ρ ∧ |m.s ^ 2 - (c / a) ^ 2| ≤ bound + 16 * δ + 36 * ρ ∧
      |dot m.major m.major - 1| ≤ 20 * R.u ∧ |dot m.inter m.inter - 1| ≤ 20 * R.u ∧ |dot m.minor m.minor - 1| ≤ 20 * R.u ∧
      (1 - 2 * bound - 3 * δ - 9 * ρ) * a ^ 2 ≤ centralAlong { cfg with pts := ex } m.major ∧
      centralAlong { cfg with pts := ex } m.minor ≤ c ^ 2 + (2 * bound + 3 * δ + 13 * ρ) * a ^ 2 := by
  have hc := hp.pos
  have hb0 : 0 < b := hc.trans_le hp.cb
  have ha : 0 < a := hb0.trans_le hp.ba
  have hA : 0 < a ^ 2 := by positivity
  have hmass := forall₂_mass hη
  have hM : 0 < (ex.map Pt.m).sum := by
    obtain ⟨p, ps, e⟩ := List.exists_cons_of_ne_nil hne
    rw [e] at hm ⊢
    rw [List.map_cons, List.sum_cons]
    refine add_pos_of_pos_of_nonneg (hm p List.mem_cons_self) (List.sum_nonneg ?_)
    intro v hv
    obtain ⟨q, hq, rfl⟩ := List.mem_map.1 hv
    exact (hm q (List.mem_cons_of_mem _ hq)).le
  have hm' : ∀ p ∈ cfg.pts, 0 < p.m := by
    intro p hp
    have : p.m ∈ ex.map Pt.m := by rw [← hmass]; exact List.mem_map_of_mem hp
    obtain ⟨q, hq, e⟩ := List.mem_map.1 this
    rw [← e]
    exact hm q hq
  have hne' : cfg.pts ≠ [] := by
    intro e
    rw [e] at hmass
    exact hne (List.map_eq_nil_iff.1 hmass.symm)
  have hσ0 : 0 < c / a := div_pos hc ha
  have hσ : (c / a) ^ 2 ≤ 1 := pow_le_one₀ hσ0.le ((div_le_one ha).2 (hp.cb.trans hp.ba))
  have hρA : (ex.map Pt.m).sum * (3 * η ^ 2) ≤ ρ ^ 2 * a ^ 2 := by
    have h1 := mul_le_mul_of_nonneg_left hρ hM.le
    have e : (ex.map Pt.m).sum * (ρ ^ 2 * (a ^ 2 / (ex.map Pt.m).sum)) = ρ ^ 2 * a ^ 2 := by field_simp
    linarith
  obtain ⟨near, a', b', c', x', y', z', hp', ga, ga', gc', nq, ns⟩ := inexact_principal cfg ex hη (fun p hp => (hm p hp).le) hM hp hρ0 hρ1 hρA
  have hc' := hp'.pos
  have ha' : 0 < a' := (hc'.trans_le hp'.cb).trans_le hp'.ba
  have hA' : 0 < a' ^ 2 := by positivity
  have hρ2 : ρ ≤ 1 / 360 := by linarith
  have hratio : 9 / 10 * (c / a) ^ 2 ≤ (c' / a') ^ 2 := by
    have := (abs_le.1 ns).1
    linarith
  have hroot : 9 / 10 * (c / a) ≤ c' / a' := by
    refine (abs_le_of_sq_le_sq' ?_ (div_pos hc' ha').le).2
    have : 0 ≤ (c / a) ^ 2 := sq_nonneg _
    nlinarith
  have hδ0 : 0 ≤ δ := by rw [hδ]; positivity
  have hδe : 3 * ε ^ 2 / (a' ^ 2 / (cfg.pts.map Pt.m).sum) ≤ 4 / 3 * δ := by
    rw [hδ, hmass]
    have e1 : 3 * ε ^ 2 / (a' ^ 2 / (ex.map Pt.m).sum) = 3 * ε ^ 2 * (ex.map Pt.m).sum / a' ^ 2 := by field_simp
    have e2 : 4 / 3 * (3 * ε ^ 2 / (a ^ 2 / (ex.map Pt.m).sum)) = 3 * ε ^ 2 * (ex.map Pt.m).sum / (3 / 4 * a ^ 2) := by field_simp
    rw [e1, e2]
    refine div_le_div_of_nonneg_left (by positivity) (by positivity) ?_
    nlinarith
  have hδ'0 : 0 ≤ 3 * ε ^ 2 / (a' ^ 2 / (cfg.pts.map Pt.m).sum) := by rw [hmass]; positivity
  obtain ⟨m, hrun, md, mq, ms, m1, m2, m3, mx, mz⟩ := C171_centre R S β hβ0 cfg hsol hred hell hm' hne' htol0 htol hwall hn hd a' b' c' x' y' z' hp'
    (fun p hpp => by
      refine (hin p hpp).trans ?_
      have := mul_le_mul_of_nonneg_right hroot hd.le
      have : 0 < c / a * cfg.d := mul_pos hσ0 hd
      linarith) ε hε bound _ hbound (by have := sq_nonneg (c / a); linarith) rfl (by linarith) fuel hfuel morph
  generalize 3 * ε ^ 2 / (a' ^ 2 / (cfg.pts.map Pt.m).sum) = δ' at *
  have hb00 : 0 ≤ bound := by
    rw [hbound]
    have := R.u_nonneg
    positivity
  have hu20 : 20 * R.u ≤ 1 := by
    have h1 : 576 * R.u ≤ bound := by
      have := mul_nonneg (Nat.cast_nonneg (α := ℝ) cfg.pts.length) R.u_nonneg
      rw [hbound]
      linarith
    have := R.u_nonneg
    linarith
  have hb1 : bound ≤ 1 / 20 := by linarith
  refine ⟨m, hrun, md, ?_, ?_, m1, m2, m3, ?_, ?_⟩
  · have := abs_add_le (m.q ^ 2 - (b' / a') ^ 2) ((b' / a') ^ 2 - (b / a) ^ 2)
    rw [sub_add_sub_cancel] at this
    linarith
  · have := abs_add_le (m.s ^ 2 - (c' / a') ^ 2) ((c' / a') ^ 2 - (c / a) ^ 2)
    rw [sub_add_sub_cancel] at this
    linarith
  · have h2 : dot m.major m.major ≤ 2 := by
      have := (abs_le.1 m1).2
      linarith
    have h3 := (abs_le.1 (near m.major)).2
    exact major_last hb00 hb1 hδ'0 hδe hδ1 hρ0.le hA.le ga h2 (by linarith) mx
  · have h2 : dot m.minor m.minor ≤ 2 := by
      have := (abs_le.1 m3).2
      linarith
    have h3 := (abs_le.1 (near m.minor)).1
    exact minor_last hb00 hb1 hδ'0 hδe hδ1 hρ0.le hA.le ga' gc' h2 (by linarith) mz

/-- A particle whose coordinates are stored with rounding `S`. -/
noncomputable def storedAs (S : Rounding) (p : Pt) : Pt := ⟨fun i => S.rnd (p.x i), fun i => S.rnd (p.src i), p.m⟩

/-- C172, for positions stored in single precision: the iteration and the centre of mass work in double precision on the stored positions of the
particles `ex`, which are at most `X` from the origin and at most `W` from each other along each axis. -/
theorem C172_stored (R S : Rounding) (β : ℝ) (hβ0 : 0 ≤ β) (cfg : Config) (hsol : BackwardStable β cfg.solver) (hred : cfg.reduced = false)
    (hell : cfg.deltaD = none) (ex : List Pt) (hm : ∀ p ∈ ex, 0 < p.m) (hpos : ∀ p ∈ ex, p.src = p.x) (hsame : cfg.srcCenter = cfg.center)
    (hpts : cfg.pts = ex.map (storedAs S)) (htol0 : 0 ≤ cfg.tol) (htol : cfg.tol < 1) (hwall : 2 ≤ cfg.wall)
    (hn : cfg.itMin ≤ cfg.pts.length) (hd : 0 < cfg.d) (a b c : ℝ) (x y z : Vec ℝ) (hp : Principal (centralMoments { cfg with pts := ex }) a b c x y z)
    (hin : ∀ p ∈ cfg.pts, Periodic.dist p.x cfg.center ≤ c / a * cfg.d / 4)
    (chosen : List Pt) (hch0 : chosen ≠ []) (hch : ∀ p ∈ chosen, p ∈ cfg.pts) (hchu : (chosen.length + 1) * R.u ≤ 1 / 2)
    (hcentre : ∀ i, CoM R (chosen.map fun p => p.x i) (cfg.pts.map fun p => (p.x i, p.m)) (cfg.center i))
    (X W : ℝ) (hX : ∀ p ∈ ex, ∀ i, |p.x i| ≤ X) (hW : ∀ p ∈ ex, ∀ p' ∈ ex, ∀ i, p.x i - p'.x i ≤ W)
    (ρ : ℝ) (hρ0 : 0 < ρ) (hρ : 3 * (S.u * X) ^ 2 ≤ ρ ^ 2 * (a ^ 2 / (ex.map Pt.m).sum)) (hρ1 : 36 * ρ ≤ (c / a) ^ 2 / 10)
    (ε bound δ : ℝ) (hε : ε = R.u * (2 * X) + 4 * (2 * cfg.pts.length + 3) * R.u * (W + 2 * S.u * X + 2 * (chosen.length + 1) * R.u * (2 * X)))
    (hbound : bound = 72 * (cfg.pts.length + 8) * R.u + 15 * β) (hb : bound ≤ (c / a) ^ 2 / 25)
    (hδ : δ = 3 * ε ^ 2 / (a ^ 2 / (ex.map Pt.m).sum)) (hδ1 : δ ≤ 1 / 4)
    (fuel : Nat) (hfuel : 3 ≤ fuel) (morph : Morph) :
    ∃ m, roundedRun R S fuel cfg morph = some (some m) ∧ m.d = cfg.d ∧
      |m.q ^ 2 - (b / a) ^ 2| ≤ bound + 16 * δ + 36 * ρ ∧ |m.s ^ 2 - (c / a) ^ 2| ≤ bound + 16 * δ + 36 * ρ ∧
      |dot m.major m.major - 1| ≤ 20 * R.u ∧ |dot m.inter m.inter - 1| ≤ 20 * R.u ∧ |dot m.minor m.minor - 1| ≤ 20 * R.u ∧
      (1 - 2 * bound - 3 * δ - 9 * ρ) * a ^ 2 ≤ centralAlong { cfg with pts := ex } m.major ∧
      centralAlong { cfg with pts := ex } m.minor ≤ c ^ 2 + (2 * bound + 3 * δ + 13 * ρ) * a ^ 2 := by
  have hne : ex ≠ [] := by
    rintro rfl
    obtain ⟨p, ps, e⟩ := List.exists_cons_of_ne_nil hch0
    have := hch p (by rw [e]; exact List.mem_cons_self)
    rw [hpts] at this
    simp at this
  have hc := hp.pos
  have ha : 0 < a := (hc.trans_le hp.cb).trans_le hp.ba
  have hσ : (c / a) ^ 2 ≤ 1 := pow_le_one₀ (div_pos hc ha).le ((div_le_one ha).2 (hp.cb.trans hp.ba))
  have hSu := S.u_nonneg
  have hround : ∀ p ∈ ex, ∀ i, |S.rnd (p.x i) - p.x i| ≤ S.u * X := by
    intro p hp i
    exact (S.err _).trans (mul_le_mul_of_nonneg_left (hX p hp i) hSu)
  have hX0 : 0 ≤ X := by
    obtain ⟨p, ps, e⟩ := List.exists_cons_of_ne_nil hne
    exact (abs_nonneg _).trans (hX p (by rw [e]; exact List.mem_cons_self) 0)
  have hSX : S.u * X ≤ X := by
    have := S.u_lt
    nlinarith
  refine C172_inexact R S β hβ0 cfg hsol hred hell ex hm hne (S.u * X) ?_ htol0 htol hwall hn hd a b c x y z hp hin ρ hρ0 hρ hρ1 ε ?_ bound δ hbound hb
    hδ hδ1 fuel hfuel morph
  · unfold Inexact
    rw [hpts, List.forall₂_map_right_iff, List.forall₂_same]
    intro p hp
    refine ⟨rfl, fun i => ?_⟩
    have := hround p hp i
    show |S.rnd (p.src i) - p.src i| ≤ _
    rwa [hpos p hp]
  · intro i
    rw [hsame, hε]
    have hpos' : ∀ p ∈ cfg.pts, p.src = p.x := by
      rw [hpts]
      intro p hp
      obtain ⟨q, hq, rfl⟩ := List.mem_map.1 hp
      show (fun i => S.rnd (q.src i)) = fun i => S.rnd (q.x i)
      rw [hpos q hq]
    have hm' : ∀ p ∈ cfg.pts, 0 < p.m := by
      rw [hpts]
      intro p hp
      obtain ⟨q, hq, rfl⟩ := List.mem_map.1 hp
      exact hm q hq
    have h1 := mul_nonneg (Nat.cast_nonneg (α := ℝ) cfg.pts.length) R.u_nonneg
    have h2 := R.u_nonneg
    refine com_error R cfg hpos' hm' (by linarith) chosen hch0 hch hchu cfg.center hcentre (2 * X) (W + 2 * S.u * X) ?_ ?_ i
    · rw [hpts]
      intro p hp i
      obtain ⟨q, hq, rfl⟩ := List.mem_map.1 hp
      have h3 := abs_le.1 (hround q hq i)
      have h4 := abs_le.1 (hX q hq i)
      show |S.rnd (q.x i)| ≤ _
      rw [abs_le]
      constructor <;> linarith
    · rw [hpts]
      intro p hp p' hp' i
      obtain ⟨q, hq, rfl⟩ := List.mem_map.1 hp
      obtain ⟨q', hq', rfl⟩ := List.mem_map.1 hp'
      have h3 := abs_le.1 (hround q hq i)
      have h4 := abs_le.1 (hround q' hq' i)
      have h5 := hW q hq q' hq' i
      show S.rnd (q.x i) - S.rnd (q'.x i) ≤ _
      linarith

/-! ## Example -/

/-- Six particles on the axes at distances 0.3, 0.2, 0.1, which are not numbers of single precision. -/
noncomputable def tenths : List Pt :=
  [⟨![3 / 10, 0, 0], ![3 / 10, 0, 0], 1⟩, ⟨![-(3 / 10), 0, 0], ![-(3 / 10), 0, 0], 1⟩, ⟨![0, 2 / 10, 0], ![0, 2 / 10, 0], 1⟩,
    ⟨![0, -(2 / 10), 0], ![0, -(2 / 10), 0], 1⟩, ⟨![0, 0, 1 / 10], ![0, 0, 1 / 10], 1⟩, ⟨![0, 0, -(1 / 10)], ![0, 0, -(1 / 10)], 1⟩]

/-- What the iteration is given. -/
noncomputable def tenthsCfg (sol : Solver) (c : Vec ℝ) : Config := ⟨tenths.map (storedAs float32), c, c, 100, none, 1 / 100, 100, 6, false, sol⟩

theorem tenths_principal (sol : Solver) (c : Vec ℝ) :
    Principal (centralMoments { tenthsCfg sol c with pts := tenths }) (3 / 10 * √2) (2 / 10 * √2) (1 / 10 * √2) ![1, 0, 0] ![0, 1, 0] ![0, 0, 1] := by
  have h2 : 0 < √(2 : ℝ) := by positivity
  have e2 : √(2 : ℝ) ^ 2 = 2 := Real.sq_sqrt (by norm_num)
  have hmean : ∀ i, trueMean { tenthsCfg sol c with pts := tenths } i = 0 := by
    intro i
    unfold trueMean
    fin_cases i <;> simp [tenths]
  refine ⟨by linarith, by linarith, by linarith, ?_, ?_, ?_, ?_⟩
  · simp [Shapes.Orthonormal, dot]
  all_goals
    intro i
    simp only [mul_pow, e2]
    unfold centralMoments
    simp only [hmean]
    fin_cases i <;> simp [tenths] <;> norm_num

/-- With positions stored in single precision, the axis ratios 2/3 and 1/3 are found to four digits. -/
example (sol : Solver) (hsol : GoodSolver sol) :
    ∃ (c : Vec ℝ) (m : Morph), (∀ i, CoM float64 ((tenthsCfg sol c).pts.map fun p => p.x i) ((tenthsCfg sol c).pts.map fun p => (p.x i, p.m)) (c i)) ∧
      roundedRun float64 float32 3 (tenthsCfg sol c) .zero = some (some m) ∧
      |m.q ^ 2 - 4 / 9| ≤ 1 / 10 ^ 4 ∧ |m.s ^ 2 - 1 / 9| ≤ 1 / 10 ^ 4 := by
  have hu : float64.u = 1 / 2 ^ 53 := by rw [show float64.u = (1 / 2) ^ 53 from rfl]; norm_num
  have hs : float32.u = 1 / 2 ^ 24 := by rw [show float32.u = (1 / 2) ^ 24 from rfl]; norm_num
  have h2 : 0 < √(2 : ℝ) := by positivity
  have e1 : 1 / 10 * √(2 : ℝ) / (3 / 10 * √2) = 1 / 3 := by field_simp
  have e2 : 2 / 10 * √(2 : ℝ) / (3 / 10 * √2) = 2 / 3 := by field_simp
  have hx : ∀ p ∈ tenths, ∀ i, |p.x i| ≤ 3 / 10 := by
    intro p hp i
    simp only [tenths, List.mem_cons, List.not_mem_nil, or_false] at hp
    rcases hp with rfl | rfl | rfl | rfl | rfl | rfl <;> fin_cases i <;> simp <;> norm_num [abs_of_pos]
  have hpos : ∀ p ∈ tenths, p.src = p.x := by simp [tenths]
  have hmass : ∀ p ∈ tenths, 0 < p.m := by simp [tenths]
  have hsum : (tenths.map Pt.m).sum = 6 := by simp [tenths]; norm_num
  choose c hc using fun i => com_exists float64 ((tenths.map (storedAs float32)).map fun p => p.x i)
    ((tenths.map (storedAs float32)).map fun p => (p.x i, p.m))
  have hlen : (tenthsCfg sol c).pts.length = 6 := rfl
  have hround : ∀ p ∈ tenths, ∀ i, |float32.rnd (p.x i)| ≤ 1 := by
    intro p hp i
    have h1 := abs_le.1 ((float32.err (p.x i)).trans (mul_le_mul_of_nonneg_left (hx p hp i) float32.u_nonneg))
    have h3 := abs_le.1 (hx p hp i)
    rw [hs] at h1
    rw [abs_le]
    constructor <;> linarith [h1.1, h1.2, h3.1, h3.2]
  have hmem : ∀ p ∈ (tenthsCfg sol c).pts, p.src = p.x ∧ 0 < p.m ∧ ∀ i, |p.x i| ≤ 1 := by
    intro p hp
    obtain ⟨q, hq, rfl⟩ := List.mem_map.1 hp
    refine ⟨?_, hmass q hq, hround q hq⟩
    show (fun i => float32.rnd (q.src i)) = fun i => float32.rnd (q.x i)
    rw [hpos q hq]
  have hmean : ∀ i, trueMean (tenthsCfg sol c) i = 0 := by
    intro i
    unfold trueMean
    fin_cases i <;> simp [tenthsCfg, tenths, storedAs, float32.odd, rnd_zero]
  have hcs : ∀ i, |c i| ≤ 1 := by
    intro i
    have := com_error float64 (tenthsCfg sol c) (fun p hp => (hmem p hp).1) (fun p hp => (hmem p hp).2.1) (by rw [hlen, hu]; norm_num)
      (tenthsCfg sol c).pts (by simp [tenthsCfg, tenths]) (fun p hp => hp) (by rw [hlen, hu]; norm_num) c hc 1 2 (fun p hp => (hmem p hp).2.2)
      (fun p hp p' hp' i => by
        have h1 := abs_le.1 ((hmem p hp).2.2 i)
        have h3 := abs_le.1 ((hmem p' hp').2.2 i)
        linarith) i
    rw [hmean, sub_zero, hlen, hu] at this
    refine this.trans ?_
    norm_num
  obtain ⟨m, hrun, -, hq, hs', -⟩ := C172_stored float64 float32 0 le_rfl (tenthsCfg sol c) (GoodSolver.stable hsol)
    rfl rfl tenths hmass hpos rfl rfl (by simp only [tenthsCfg]; norm_num) (by simp only [tenthsCfg]; norm_num) (by simp only [tenthsCfg]; norm_num)
    (by simp [tenthsCfg, tenths]) (by simp only [tenthsCfg]; norm_num) _ _ _ _ _ _ (tenths_principal sol c)
    (by
      intro p hp
      have h1 : Periodic.dist p.x c ≤ 7 := by
        unfold Periodic.dist
        rw [Real.sqrt_le_iff]
        refine ⟨by norm_num, ?_⟩
        have h : ∀ i, (p.x i - c i) ^ 2 ≤ 16 := by
          intro i
          have h3 := abs_le.1 ((hmem p hp).2.2 i)
          have h4 := abs_le.1 (hcs i)
          nlinarith
        have := h 0
        have := h 1
        have := h 2
        linarith
      rw [e1]
      refine h1.trans ?_
      simp only [tenthsCfg]
      norm_num)
    (tenthsCfg sol c).pts (by simp [tenthsCfg, tenths]) (fun p hp => hp) (by rw [hlen, hu]; norm_num) hc (3 / 10) (6 / 10) hx
    (by
      intro p hp p' hp' i
      have h3 := abs_le.1 (hx p hp i)
      have h4 := abs_le.1 (hx p' hp' i)
      linarith) (1 / 10 ^ 6) (by norm_num)
    (by rw [hsum, hs, mul_pow (3 / 10), Real.sq_sqrt (by norm_num)]; norm_num) (by rw [e1]; norm_num) _ _ _ rfl rfl
    (by rw [hu, e1, hlen]; norm_num) rfl
    (by
      rw [hu, hs, hlen, hsum, mul_pow (3 / 10), Real.sq_sqrt (by norm_num)]
      norm_num) 3 le_rfl .zero
  rw [e2, hu, hs, hlen, hsum, mul_pow (3 / 10), Real.sq_sqrt (by norm_num)] at hq
  rw [e1, hu, hs, hlen, hsum, mul_pow (3 / 10), Real.sq_sqrt (by norm_num)] at hs'
  refine ⟨c, m, hc, hrun, ?_, ?_⟩
  · refine (le_of_eq ?_).trans (hq.trans (by norm_num))
    norm_num
  · refine (le_of_eq ?_).trans (hs'.trans (by norm_num))
    norm_num

end Verif.Round
