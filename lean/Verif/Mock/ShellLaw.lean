import Verif.Mock.Isotropic
import Mathlib.MeasureTheory.Integral.Prod
import Mathlib.Analysis.SpecialFunctions.Integrals.Basic

/-!
# Particles of shells, and expected shape tensors (C174)

`drawUniformFromShell`, cosmic_profiles/common/python_routines.py:419-497, as a random experiment: three independent normal numbers and a
uniform one for a point of a ball, whose direction is used, and another uniform number which selects the surface.  What is drawn is
modelled in Mock/Model.lean (`ellipsoidPoint`, `place`) and Mock/Planar.lean; here are the distributions which follow from that of the
numbers of numpy's generator.  Simplified: the numbers are exactly normal and uniform, and independent; rounding is not modelled here.
-/

namespace Verif.Mock

open MeasureTheory Metric Set ENNReal ProbabilityTheory

/-! ## Specification -/

/-- Random numbers for one particle of shell `k` of `n`: those for a point in a ball, and one which is uniform between `k / n` and
`(k + 1) / n`. -/
noncomputable def randomShell (n k : ℕ) : Measure (((ℝ × ℝ × ℝ) × ℝ) × ℝ) :=
  randomSpace.prod ((n : ℝ≥0∞) • volume.restrict (Ico ((k : ℝ) / n) ((k + 1 : ℝ) / n)))

/-- The particle of shell `k` which `drawUniformFromShell` makes of these numbers, see `C168_shell_three`. -/
noncomputable def shellParticle (s : Axes) (k : ℕ) (p : ((ℝ × ℝ × ℝ) × ℝ) × ℝ) : ℝ × ℝ × ℝ :=
  let av := s.a.getD k 0
  let d := ellipsoidPoint av av av p.1.1 p.1.2
  place s ⟨d.1, d.2.1, d.2.2, p.2⟩

/-- A length between that of shell `k - 1` (zero for the first shell) and that of shell `k`. -/
noncomputable def between (l : List ℝ) (k : ℕ) (t : ℝ) : ℝ := (0 :: l).getD k 0 + t * (l.getD k 0 - (0 :: l).getD k 0)

/-- The place of the surface of an ellipsoid in the direction (before stretching) of `x`. -/
noncomputable def onSurface (a b c : ℝ) (x : ℝ × ℝ × ℝ) : ℝ × ℝ × ℝ :=
  (a * (x.1 / distance x), b * (x.2.1 / distance x), c * (x.2.2 / distance x))

/-- The unit ball. -/
def UnitBall : Set (ℝ × ℝ × ℝ) := Ellipsoid 1 1 1

/-! ## Proofs -/

theorem distance_measurable : Measurable distance := by
  unfold distance
  fun_prop

theorem onSurface_measurable : Measurable fun q : (ℝ × ℝ × ℝ) × (ℝ × ℝ × ℝ) => onSurface q.1.1 q.1.2.1 q.1.2.2 q.2 := by
  unfold onSurface
  have := distance_measurable
  fun_prop

theorem distance_pos {g : ℝ × ℝ × ℝ} (h : g ≠ 0) : 0 < distance g := by
  unfold distance
  apply Real.sqrt_pos.2
  by_contra hc
  apply h
  have h1 : g.1 = 0 := by nlinarith [sq_nonneg g.1, sq_nonneg g.2.1, sq_nonneg g.2.2]
  have h2 : g.2.1 = 0 := by nlinarith [sq_nonneg g.1, sq_nonneg g.2.1, sq_nonneg g.2.2]
  have h3 : g.2.2 = 0 := by nlinarith [sq_nonneg g.1, sq_nonneg g.2.1, sq_nonneg g.2.2]
  exact Prod.ext h1 (Prod.ext h2 h3)

theorem distance_smul (r : ℝ) (hr : 0 ≤ r) (g : ℝ × ℝ × ℝ) : distance (r * g.1, r * g.2.1, r * g.2.2) = r * distance g := by
  unfold distance
  rw [show (r * g.1) ^ 2 + (r * g.2.1) ^ 2 + (r * g.2.2) ^ 2 = r ^ 2 * (g.1 ^ 2 + g.2.1 ^ 2 + g.2.2 ^ 2) by ring,
    Real.sqrt_mul (sq_nonneg r), Real.sqrt_sq hr]

theorem onSurface_smul (a b c r : ℝ) (hr : 0 < r) (g : ℝ × ℝ × ℝ) : onSurface a b c (r * g.1, r * g.2.1, r * g.2.2) = onSurface a b c g := by
  unfold onSurface
  rw [distance_smul r hr.le]
  simp only [mul_div_mul_left _ _ hr.ne']

/-- A point drawn from a ball has the direction of the normal vector. -/
theorem ball_point (a : ℝ) (ha : 0 < a) (g : ℝ × ℝ × ℝ) (w : ℝ) : ellipsoidPoint a a a g w =
    ((a * w ^ ((1 : ℝ) / 3) / distance g) * g.1, (a * w ^ ((1 : ℝ) / 3) / distance g) * g.2.1,
      (a * w ^ ((1 : ℝ) / 3) / distance g) * g.2.2) := by
  unfold ellipsoidPoint distance
  simp only [stretch a ha]
  refine Prod.ext ?_ (Prod.ext ?_ ?_) <;> simp only <;> ring

/-- What a particle of a shell is. -/
theorem shell_particle (s : Axes) (n : Nat) (hs : Shells s n) (k : Nat) (hk : k < n) (g : ℝ × ℝ × ℝ) (hg : g ≠ 0) (w : ℝ) (hw : 0 < w)
    (v : ℝ) (h1 : (k : ℝ) / n ≤ v) (h2 : v < (k + 1 : ℝ) / n) :
    shellParticle s k ((g, w), v) = onSurface (between s.a k (v * n - k)) (between s.b k (v * n - k)) (between s.c k (v * n - k)) g := by
  have hla := hs.la
  have ha : 0 < s.a.getD k 0 := getD_pos hs.pa (by omega)
  have hd := distance_pos hg
  set r := s.a.getD k 0 * w ^ ((1 : ℝ) / 3) / distance g with hr
  have hr0 : 0 < r := div_pos (mul_pos ha (Real.rpow_pos_of_pos hw _)) hd
  have hb := ball_point (s.a.getD k 0) ha g w
  rw [← hr] at hb
  have hne : (r * g.1, r * g.2.1, r * g.2.2) ≠ (0, 0, 0) := by
    intro h
    have := distance_smul r hr0.le g
    rw [h] at this
    have h0 : distance (0, 0, 0) = 0 := by simp [distance]
    rw [h0] at this
    exact (mul_pos hr0 hd).ne this
  obtain ⟨d1, d2, d3⟩ := direction (r * g.1) (r * g.2.1) (r * g.2.2) hne
  have ia := interp_between hk (0 :: s.a) h1 h2.le
  have ib := interp_between hk (0 :: s.b) h1 h2.le
  have ic := interp_between hk (0 :: s.c) h1 h2.le
  have ea : (0 :: s.a).getD (k + 1) 0 = s.a.getD k 0 := by simp
  have eb : (0 :: s.b).getD (k + 1) 0 = s.b.getD k 0 := by simp
  have ec : (0 :: s.c).getD (k + 1) 0 = s.c.getD k 0 := by simp
  rw [ea] at ia
  rw [eb] at ib
  rw [ec] at ic
  rw [← onSurface_smul _ _ _ r hr0 g]
  unfold shellParticle place
  simp only [hb, hla, ia, ib, ic, d1, d2, d3]
  unfold onSurface between distance
  refine Prod.ext ?_ (Prod.ext ?_ ?_) <;> simp only <;> ring

theorem normals_atomless : ((gaussianReal 0 1).prod ((gaussianReal 0 1).prod (gaussianReal 0 1))) {0} = 0 := by
  have : NullSingletonClass (gaussianReal 0 1) := nullSingletonClass_gaussianReal one_ne_zero
  have h : ((gaussianReal 0 1).prod ((gaussianReal 0 1).prod (gaussianReal 0 1))) ({0} ×ˢ univ) = 0 := by
    rw [Measure.prod_prod, measure_singleton, zero_mul]
  refine measure_mono_null ?_ h
  intro x hx
  rw [mem_singleton_iff.1 hx]
  exact ⟨rfl, trivial⟩

instance : IsProbabilityMeasure (volume.restrict (Ico (0 : ℝ) 1)) := ⟨by simp⟩

instance : IsProbabilityMeasure randomSpace := by unfold randomSpace; infer_instance

/-- Almost surely the normal vector is not zero and the uniform number is positive. -/
theorem almost_surely : ∀ᵐ p ∂randomSpace, p.1 ≠ 0 ∧ 0 < p.2 := by
  have h1 : ∀ᵐ g ∂((gaussianReal 0 1).prod ((gaussianReal 0 1).prod (gaussianReal 0 1))), g ≠ 0 := by
    rw [ae_iff]
    simpa using normals_atomless
  have h2 : ∀ᵐ w ∂(volume.restrict (Ico (0 : ℝ) 1)), 0 < w := by
    rw [Measure.restrict_congr_set Ioo_ae_eq_Ico.symm]
    exact (ae_restrict_mem measurableSet_Ioo).mono fun w hw => hw.1
  unfold randomSpace
  have a1 := Measure.quasiMeasurePreserving_fst (μ := (gaussianReal 0 1).prod ((gaussianReal 0 1).prod (gaussianReal 0 1)))
    (ν := volume.restrict (Ico (0 : ℝ) 1)) |>.ae h1
  have a2 := Measure.quasiMeasurePreserving_snd (μ := (gaussianReal 0 1).prod ((gaussianReal 0 1).prod (gaussianReal 0 1)))
    (ν := volume.restrict (Ico (0 : ℝ) 1)) |>.ae h2
  filter_upwards [a1, a2] with p q1 q2 using ⟨q1, q2⟩

/-- The direction of the normal vector is isotropic. -/
theorem direction_law (a b c : ℝ) (A : Set (ℝ × ℝ × ℝ)) (hA : MeasurableSet A) :
    randomSpace {p | onSurface a b c p.1 ∈ A} = volume ({x | onSurface a b c x ∈ A} ∩ UnitBall) / volume UnitBall := by
  have hm : MeasurableSet {x | onSurface a b c x ∈ A} :=
    (onSurface_measurable.comp (measurable_const.prodMk measurable_id : Measurable fun x : ℝ × ℝ × ℝ => ((a, b, c), x))) hA
  unfold UnitBall
  rw [← (law3 1 1 1 one_pos one_pos one_pos _ hm).2]
  refine measure_congr ?_
  filter_upwards [almost_surely] with p hp
  have e : onSurface a b c (ellipsoidPoint 1 1 1 p.1 p.2) = onSurface a b c p.1 := by
    rw [ball_point 1 one_pos]
    exact onSurface_smul a b c _ (div_pos (mul_pos one_pos (Real.rpow_pos_of_pos hp.2 _)) (distance_pos hp.1)) p.1
  apply propext
  change onSurface a b c p.1 ∈ A ↔ onSurface a b c (ellipsoidPoint 1 1 1 p.1 p.2) ∈ A
  rw [e]

/-- The position of the uniform number in its interval is uniform between 0 and 1. -/
theorem interval_law (n k : ℕ) (hn : n ≠ 0) (G : ℝ → ℝ≥0∞) :
    ∫⁻ v, G (v * n - k) ∂((n : ℝ≥0∞) • volume.restrict (Ico ((k : ℝ) / n) ((k + 1 : ℝ) / n))) = ∫⁻ t in Ico (0 : ℝ) 1, G t := by
  have hn0 : (0 : ℝ) < n := by exact_mod_cast Nat.pos_of_ne_zero hn
  have key := lintegral_image_eq_lintegral_abs_deriv_mul (s := Ico ((k : ℝ) / n) ((k + 1 : ℝ) / n)) (f := fun v : ℝ => v * n - k)
    (f' := fun _ => n) measurableSet_Ico (fun x _ => by
      have := ((hasDerivAt_id x).mul_const (n : ℝ)).sub_const (k : ℝ)
      simpa using this.hasDerivWithinAt) (fun x _ y _ h => by
      have : x * (n : ℝ) = y * n := by simpa using h
      exact mul_right_cancel₀ hn0.ne' this) G
  have him : (fun v : ℝ => v * n - k) '' Ico ((k : ℝ) / n) ((k + 1 : ℝ) / n) = Ico 0 1 := by
    ext t
    constructor
    · rintro ⟨v, ⟨h1, h2⟩, rfl⟩
      rw [div_le_iff₀ hn0] at h1
      rw [lt_div_iff₀ hn0] at h2
      exact ⟨by simp only; linarith, by simp only; linarith⟩
    · rintro ⟨h1, h2⟩
      refine ⟨(t + k) / n, ⟨?_, ?_⟩, by field_simp; ring⟩
      · exact div_le_div_of_nonneg_right (by linarith) hn0.le
      · exact div_lt_div_of_pos_right (by linarith) hn0
  rw [him] at key
  rw [key, lintegral_smul_measure, smul_eq_mul, abs_of_pos hn0, ENNReal.ofReal_natCast, lintegral_const_mul' _ _ (natCast_ne_top n)]

/-- C174. Which particles a shell gets: a surface between the two surfaces which bound the shell is chosen uniformly (a share `t` of the way),
and on it a place with isotropic direction before stretching.  For any region, the probability that a particle is in it is the mean, over `t`
between 0 and 1, of the share of the unit ball in whose directions the surface is in the region. -/
theorem C174_shell (s : Axes) (n : Nat) (hs : Shells s n) (k : Nat) (hk : k < n) (A : Set (ℝ × ℝ × ℝ)) (hA : MeasurableSet A) :
    randomShell n k {p | shellParticle s k p ∈ A} = ∫⁻ t in Ico (0 : ℝ) 1,
      volume ({x | onSurface (between s.a k t) (between s.b k t) (between s.c k t) x ∈ A} ∩ UnitBall) / volume UnitBall := by
  have hn : n ≠ 0 := by omega
  set ν := (n : ℝ≥0∞) • volume.restrict (Ico ((k : ℝ) / n) ((k + 1 : ℝ) / n)) with hν
  set S : Set (((ℝ × ℝ × ℝ) × ℝ) × ℝ) := {p | onSurface (between s.a k (p.2 * n - k)) (between s.b k (p.2 * n - k))
    (between s.c k (p.2 * n - k)) p.1.1 ∈ A} with hS
  have hSm : MeasurableSet S := by
    have hb : ∀ l : List ℝ, Measurable fun p : ((ℝ × ℝ × ℝ) × ℝ) × ℝ => between l k (p.2 * n - k) := by
      intro l
      unfold between
      fun_prop
    exact (onSurface_measurable.comp (((hb s.a).prodMk ((hb s.b).prodMk (hb s.c))).prodMk (measurable_fst.comp measurable_fst))) hA
  have hν2 : ∀ᵐ v ∂ν, v ∈ Ico ((k : ℝ) / n) ((k + 1 : ℝ) / n) :=
    Measure.ae_smul_measure (ae_restrict_mem measurableSet_Ico) _
  have hsf : SFinite ν := by rw [hν]; infer_instance
  have e : randomShell n k {p | shellParticle s k p ∈ A} = randomShell n k S := by
    refine measure_congr ?_
    unfold randomShell
    have a1 := Measure.quasiMeasurePreserving_fst (μ := randomSpace) (ν := ν) |>.ae almost_surely
    have a2 := Measure.quasiMeasurePreserving_snd (μ := randomSpace) (ν := ν) |>.ae hν2
    filter_upwards [a1, a2] with p q1 q2
    apply propext
    change shellParticle s k p ∈ A ↔ onSurface _ _ _ p.1.1 ∈ A
    rw [← shell_particle s n hs k hk p.1.1 q1.1 p.1.2 q1.2 p.2 q2.1 q2.2]
  have hsp : SFinite randomSpace := by unfold randomSpace; infer_instance
  rw [e]
  unfold randomShell
  rw [Measure.prod_apply_symm hSm, ← interval_law n k hn]
  refine lintegral_congr fun v => ?_
  exact direction_law (between s.a k (v * n - k)) (between s.b k (v * n - k)) (between s.c k (v * n - k)) A hA

/-- C174. For a shell between two spheres distance and direction are independent: the distance is uniform between the two radii, and the
direction is isotropic, that is, its probability to be in a cone is the share of the cone in the ball. -/
theorem C174_sphere (s : Axes) (n : Nat) (hs : Shells s n) (hsa : s.a.Pairwise (· < ·)) (hab : s.b = s.a) (hac : s.c = s.a) (k : Nat)
    (hk : k < n) (C : Set (ℝ × ℝ × ℝ)) (hC : MeasurableSet C)
    (hcone : ∀ x r, 0 < r → (x ∈ C ↔ ((r * x.1, r * x.2.1, r * x.2.2) : ℝ × ℝ × ℝ) ∈ C))
    (t : ℝ) (ht1 : (0 :: s.a).getD k 0 ≤ t) (ht2 : t ≤ s.a.getD k 0) :
    randomShell n k {p | shellParticle s k p ∈ C ∧ distance (shellParticle s k p) ≤ t} =
      ENNReal.ofReal ((t - (0 :: s.a).getD k 0) / (s.a.getD k 0 - (0 :: s.a).getD k 0)) *
        (volume (C ∩ UnitBall) / volume UnitBall) := by
  obtain ⟨hr0, hlt⟩ := inner_lt_outer s n hs hsa k hk
  have hA : MeasurableSet (C ∩ {x | distance x ≤ t}) := hC.inter (measurableSet_le distance_measurable measurable_const)
  have h := C174_shell s n hs k hk _ hA
  rw [hab, hac] at h
  refine Eq.trans h ?_
  set r := (0 :: s.a).getD k 0 with hr
  set R := s.a.getD k 0 with hR
  set q := (t - r) / (R - r) with hq
  have hd : 0 < R - r := by linarith
  have hq1 : q ≤ 1 := by rw [hq, div_le_one hd]; linarith
  have hq0 : 0 ≤ q := div_nonneg (by linarith) hd.le
  have hval : ∀ τ ∈ Ioo (0 : ℝ) 1, volume ({x | onSurface (between s.a k τ) (between s.a k τ) (between s.a k τ) x ∈ C ∩ {x | distance x ≤ t}} ∩ UnitBall) /
      volume UnitBall = (Iic q).indicator (fun _ => volume (C ∩ UnitBall) / volume UnitBall) τ := by
    intro τ hτ
    set ρ := between s.a k τ with hρ
    have hρe : ρ = r + τ * (R - r) := rfl
    have hρ0 : 0 < ρ := by rw [hρe]; nlinarith [mul_pos hτ.1 hd]
    have hpt : ∀ x : ℝ × ℝ × ℝ, x ≠ 0 → onSurface ρ ρ ρ x = (ρ / distance x * x.1, ρ / distance x * x.2.1, ρ / distance x * x.2.2) := by
      intro x _
      unfold onSurface
      refine Prod.ext ?_ (Prod.ext ?_ ?_) <;> simp only <;> ring
    have hmem : ∀ x : ℝ × ℝ × ℝ, x ≠ 0 → (onSurface ρ ρ ρ x ∈ C ∩ {x | distance x ≤ t} ↔ x ∈ C ∧ τ ≤ q) := by
      intro x hx
      have hdx := distance_pos hx
      rw [hpt x hx, mem_inter_iff, ← hcone x _ (div_pos hρ0 hdx), Set.mem_ofPred_eq, distance_smul _ (div_pos hρ0 hdx).le,
        div_mul_cancel₀ _ hdx.ne', hρe, hq, le_div_iff₀ hd]
      refine and_congr_right fun _ => ?_
      constructor <;> intro h <;> linarith
    have h0 : volume ({0} : Set (ℝ × ℝ × ℝ)) = 0 := by
      have : volume (({0} : Set ℝ) ×ˢ (univ : Set (ℝ × ℝ))) = 0 := by
        rw [Measure.volume_eq_prod, Measure.prod_prod, Real.volume_singleton, zero_mul]
      refine measure_mono_null ?_ this
      intro x hx
      rw [mem_singleton_iff.1 hx]
      exact ⟨rfl, trivial⟩
    have hae : ∀ᵐ x : ℝ × ℝ × ℝ, x ≠ 0 := by rw [ae_iff]; simpa using h0
    by_cases hτq : τ ≤ q
    · rw [indicator_of_mem (show τ ∈ Iic q from hτq)]
      congr 1
      refine measure_congr ?_
      filter_upwards [hae] with x hx
      apply propext
      change onSurface ρ ρ ρ x ∈ C ∩ {x | distance x ≤ t} ∧ x ∈ UnitBall ↔ x ∈ C ∧ x ∈ UnitBall
      rw [hmem x hx]
      exact ⟨fun h => ⟨h.1.1, h.2⟩, fun h => ⟨⟨h.1, hτq⟩, h.2⟩⟩
    · rw [indicator_of_notMem (show τ ∉ Iic q from hτq)]
      have : volume ({x | onSurface ρ ρ ρ x ∈ C ∩ {x | distance x ≤ t}} ∩ UnitBall) = 0 := by
        refine measure_mono_null ?_ h0
        intro x hx
        by_contra hx0
        exact hτq ((hmem x hx0).1 hx.1).2
      rw [this, ENNReal.zero_div]
  rw [Measure.restrict_congr_set Ioo_ae_eq_Ico.symm, setLIntegral_congr_fun measurableSet_Ioo hval,
    lintegral_indicator measurableSet_Iic, setLIntegral_const, Measure.restrict_apply measurableSet_Iic, mul_comm]
  congr 1
  rcases eq_or_lt_of_le hq1 with h1 | h1
  · rw [h1, show Iic (1 : ℝ) ∩ Ioo 0 1 = Ioo 0 1 from inter_eq_right.2 fun x hx => hx.2.le, Real.volume_Ioo, sub_zero]
  · rw [show Iic q ∩ Ioo 0 1 = Ioc 0 q by
      ext x
      simp only [mem_inter_iff, mem_Iic, mem_Ioo, mem_Ioc]
      exact ⟨fun h => ⟨h.2.1, h.1⟩, fun h => ⟨h.2, h.1, lt_of_le_of_lt h.2 h1⟩⟩, Real.volume_Ioc, sub_zero]

/-! ## Expected shape tensors -/

/-- A coordinate of a place. -/
def coord (i : Fin 3) (x : ℝ × ℝ × ℝ) : ℝ := ![x.1, x.2.1, x.2.2] i

theorem coord_measurable (i : Fin 3) : Measurable (coord i) := by
  unfold coord
  fin_cases i <;> simp <;> fun_prop

/-- A coordinate of the direction. -/
noncomputable def dir (i : Fin 3) (x : ℝ × ℝ × ℝ) : ℝ := coord i x / distance x

theorem dir_measurable (i : Fin 3) : Measurable (dir i) := (coord_measurable i).div distance_measurable

theorem dir_sq_sum {x : ℝ × ℝ × ℝ} (h : x ≠ 0) : dir 0 x ^ 2 + dir 1 x ^ 2 + dir 2 x ^ 2 = 1 := by
  have hd := distance_pos h
  have e : distance x ^ 2 = x.1 ^ 2 + x.2.1 ^ 2 + x.2.2 ^ 2 := Real.sq_sqrt (by positivity)
  have : dir 0 x ^ 2 + dir 1 x ^ 2 + dir 2 x ^ 2 = (x.1 ^ 2 + x.2.1 ^ 2 + x.2.2 ^ 2) / distance x ^ 2 := by
    simp only [dir, coord, Matrix.cons_val]
    ring
  rw [this, ← e, div_self (by positivity)]

theorem dir_bound (i : Fin 3) (x : ℝ × ℝ × ℝ) : |dir i x| ≤ 1 := by
  by_cases h : x = 0
  · subst h
    have : dir i 0 = 0 := by
      unfold dir distance
      simp
    rw [this]
    simp
  · have := dir_sq_sum h
    apply abs_le_one_iff_mul_self_le_one.2
    fin_cases i <;> simp only [Fin.zero_eta, Fin.mk_one, Fin.reduceFinMk] <;>
      nlinarith [sq_nonneg (dir 0 x), sq_nonneg (dir 1 x), sq_nonneg (dir 2 x)]

/-- Three independent normal numbers. -/
noncomputable def normals : Measure (ℝ × ℝ × ℝ) := (gaussianReal 0 1).prod ((gaussianReal 0 1).prod (gaussianReal 0 1))

instance : IsProbabilityMeasure normals := by unfold normals; infer_instance

theorem flip_preserving : MeasurePreserving (fun x : ℝ => -x) (gaussianReal 0 1) (gaussianReal 0 1) :=
  ⟨measurable_neg, by rw [gaussianReal_map_neg, neg_zero]⟩

theorem flip0 : MeasurePreserving (fun x : ℝ × ℝ × ℝ => (-x.1, x.2.1, x.2.2)) normals normals :=
  flip_preserving.prod (MeasurePreserving.id _)

theorem flip1 : MeasurePreserving (fun x : ℝ × ℝ × ℝ => (x.1, -x.2.1, x.2.2)) normals normals :=
  (MeasurePreserving.id _).prod (flip_preserving.prod (MeasurePreserving.id _))

theorem flip2 : MeasurePreserving (fun x : ℝ × ℝ × ℝ => (x.1, x.2.1, -x.2.2)) normals normals :=
  (MeasurePreserving.id _).prod ((MeasurePreserving.id _).prod flip_preserving)

theorem swap12 : MeasurePreserving (fun x : ℝ × ℝ × ℝ => (x.1, x.2.2, x.2.1)) normals normals :=
  (MeasurePreserving.id _).prod Measure.measurePreserving_swap

theorem swap01 : MeasurePreserving (fun x : ℝ × ℝ × ℝ => (x.2.1, x.1, x.2.2)) normals normals := by
  have h := measurePreserving_prodAssoc (gaussianReal 0 1) (gaussianReal 0 1) (gaussianReal 0 1)
  have h2 : MeasurePreserving (Prod.map Prod.swap (id : ℝ → ℝ)) (((gaussianReal 0 1).prod (gaussianReal 0 1)).prod (gaussianReal 0 1))
      (((gaussianReal 0 1).prod (gaussianReal 0 1)).prod (gaussianReal 0 1)) :=
    Measure.measurePreserving_swap.prod (MeasurePreserving.id _)
  exact h.comp (h2.comp h.symm)

theorem mean_invariant {T : ℝ × ℝ × ℝ → ℝ × ℝ × ℝ} (hT : MeasurePreserving T normals normals) (f : ℝ × ℝ × ℝ → ℝ) (hf : Measurable f) :
    ∫ x, f (T x) ∂normals = ∫ x, f x ∂normals := by
  rw [← integral_map hT.measurable.aemeasurable hf.aestronglyMeasurable, hT.map_eq]

theorem mean_odd {T : ℝ × ℝ × ℝ → ℝ × ℝ × ℝ} (hT : MeasurePreserving T normals normals) (f : ℝ × ℝ × ℝ → ℝ) (hf : Measurable f)
    (h : ∀ x, f (T x) = -f x) : ∫ x, f x ∂normals = 0 := by
  have := mean_invariant hT f hf
  simp only [h, integral_neg] at this
  linarith

theorem dir_flip0 (x : ℝ × ℝ × ℝ) : dir 0 (-x.1, x.2.1, x.2.2) = -dir 0 x ∧ dir 1 (-x.1, x.2.1, x.2.2) = dir 1 x ∧
    dir 2 (-x.1, x.2.1, x.2.2) = dir 2 x := by
  simp [dir, coord, distance, neg_div]

theorem dir_flip1 (x : ℝ × ℝ × ℝ) : dir 0 (x.1, -x.2.1, x.2.2) = dir 0 x ∧ dir 1 (x.1, -x.2.1, x.2.2) = -dir 1 x ∧
    dir 2 (x.1, -x.2.1, x.2.2) = dir 2 x := by
  simp [dir, coord, distance, neg_div]

theorem dir_flip2 (x : ℝ × ℝ × ℝ) : dir 0 (x.1, x.2.1, -x.2.2) = dir 0 x ∧ dir 1 (x.1, x.2.1, -x.2.2) = dir 1 x ∧
    dir 2 (x.1, x.2.1, -x.2.2) = -dir 2 x := by
  simp [dir, coord, distance, neg_div]

theorem dir_mean (i : Fin 3) : ∫ x, dir i x ∂normals = 0 := by
  fin_cases i
  · exact mean_odd flip0 _ (dir_measurable 0) fun x => (dir_flip0 x).1
  · exact mean_odd flip1 _ (dir_measurable 1) fun x => (dir_flip1 x).2.1
  · exact mean_odd flip2 _ (dir_measurable 2) fun x => (dir_flip2 x).2.2

theorem dir_tensor (i j : Fin 3) : ∫ x, dir i x * dir j x ∂normals = if i = j then 1 / 3 else 0 := by
  have m : ∀ i j, Measurable fun x => dir i x * dir j x := fun i j => (dir_measurable i).mul (dir_measurable j)
  have hint : ∀ i, Integrable (fun x => dir i x * dir i x) normals := by
    intro i
    refine Integrable.of_bound (m i i).aestronglyMeasurable 1 (Filter.Eventually.of_forall fun x => ?_)
    rw [Real.norm_eq_abs, abs_mul]
    exact mul_le_one₀ (dir_bound i x) (abs_nonneg _) (dir_bound i x)
  have h12 : ∫ x, dir 1 x * dir 1 x ∂normals = ∫ x, dir 2 x * dir 2 x ∂normals := by
    rw [← mean_invariant swap12 _ (m 1 1)]
    refine integral_congr_ae (Filter.Eventually.of_forall fun x => ?_)
    simp [dir, coord, distance, add_assoc, add_comm (x.2.2 ^ 2)]
  have h01 : ∫ x, dir 0 x * dir 0 x ∂normals = ∫ x, dir 1 x * dir 1 x ∂normals := by
    rw [← mean_invariant swap01 _ (m 0 0)]
    refine integral_congr_ae (Filter.Eventually.of_forall fun x => ?_)
    simp [dir, coord, distance, add_comm (x.2.1 ^ 2)]
  have hsum : ∫ x, (dir 0 x * dir 0 x + dir 1 x * dir 1 x + dir 2 x * dir 2 x) ∂normals = 1 := by
    have hae : ∀ᵐ x ∂normals, x ≠ 0 := by
      rw [ae_iff]
      have := normals_atomless
      unfold normals
      simpa using this
    have : (fun x => dir 0 x * dir 0 x + dir 1 x * dir 1 x + dir 2 x * dir 2 x) =ᵐ[normals] fun _ => 1 := by
      filter_upwards [hae] with x hx
      have := dir_sq_sum hx
      nlinarith
    rw [integral_congr_ae this]
    simp
  have h3 := integral_add ((hint 0).add (hint 1)) (hint 2)
  have h4 := integral_add (hint 0) (hint 1)
  simp only [Pi.add_apply] at h3
  rw [h3, h4] at hsum
  have z01 : ∫ x, dir 0 x * dir 1 x ∂normals = 0 := mean_odd flip0 _ (m 0 1) fun x => by
    rw [(dir_flip0 x).1, (dir_flip0 x).2.1]; ring
  have z02 : ∫ x, dir 0 x * dir 2 x ∂normals = 0 := mean_odd flip0 _ (m 0 2) fun x => by
    rw [(dir_flip0 x).1, (dir_flip0 x).2.2]; ring
  have z12 : ∫ x, dir 1 x * dir 2 x ∂normals = 0 := mean_odd flip1 _ (m 1 2) fun x => by
    rw [(dir_flip1 x).2.1, (dir_flip1 x).2.2]; ring
  have z10 : ∫ x, dir 1 x * dir 0 x ∂normals = 0 := by rw [← z01]; congr 1; funext x; ring
  have z20 : ∫ x, dir 2 x * dir 0 x ∂normals = 0 := by rw [← z02]; congr 1; funext x; ring
  have z21 : ∫ x, dir 2 x * dir 1 x ∂normals = 0 := by rw [← z12]; congr 1; funext x; ring
  fin_cases i <;> fin_cases j <;> simp only [Fin.zero_eta, Fin.mk_one, Fin.reduceFinMk, Fin.reduceEq, if_true, if_false, Fin.isValue,
    z01, z02, z12, z10, z20, z21] <;> linarith

/-- Means of products of a function of the direction and a function of another number. -/
theorem mean_product (f : ℝ × ℝ × ℝ → ℝ) (g : ℝ → ℝ) :
    ∫ p, f p.1 * g p.2 ∂randomSpace = (∫ x, f x ∂normals) * ∫ w in Ico (0 : ℝ) 1, g w := by
  unfold randomSpace normals
  exact integral_prod_mul f g

theorem root_mean_sq : ∫ w in Ico (0 : ℝ) 1, (w ^ ((1 : ℝ) / 3)) ^ 2 = 3 / 5 := by
  have e : ∀ w ∈ Ico (0 : ℝ) 1, (w ^ ((1 : ℝ) / 3)) ^ 2 = w ^ ((2 : ℝ) / 3) := by
    intro w hw
    rw [← Real.rpow_natCast, ← Real.rpow_mul hw.1]
    norm_num
  rw [setIntegral_congr_fun measurableSet_Ico e, integral_Ico_eq_integral_Ioc, ← intervalIntegral.integral_of_le zero_le_one,
    integral_rpow (by norm_num)]
  norm_num

theorem ellipsoid_coord (a b c : ℝ) (ha : 0 < a) (hb : 0 < b) (hc : 0 < c) (i : Fin 3) (g : ℝ × ℝ × ℝ) (w : ℝ) :
    coord i (ellipsoidPoint a b c g w) = ![a, b, c] i * (dir i g * w ^ ((1 : ℝ) / 3)) := by
  unfold dir coord ellipsoidPoint distance
  simp only [stretch a ha, stretch b hb, stretch c hc]
  fin_cases i <;> simp <;> ring_nf <;> tauto

/-- C174. A point drawn from an ellipsoid contributes to the shape tensor, on average, what the ellipsoid itself does: a fifth of the squared
semi-axes, and nothing off the diagonal.  On average it lies at the centre.  So the root of the ratio of two expected entries is the axis
ratio of the ellipsoid. -/
theorem C174_ellipsoid_tensor (a b c : ℝ) (ha : 0 < a) (hb : 0 < b) (hc : 0 < c) (i j : Fin 3) :
    ∫ p, coord i (ellipsoidPoint a b c p.1 p.2) ∂randomSpace = 0 ∧
    ∫ p, coord i (ellipsoidPoint a b c p.1 p.2) * coord j (ellipsoidPoint a b c p.1 p.2) ∂randomSpace =
      if i = j then (![a, b, c] i) ^ 2 / 5 else 0 := by
  have hm := mean_product (dir i) fun w => w ^ ((1 : ℝ) / 3)
  have ht := mean_product (fun x => dir i x * dir j x) fun w => (w ^ ((1 : ℝ) / 3)) ^ 2
  rw [dir_mean, zero_mul] at hm
  rw [dir_tensor, root_mean_sq] at ht
  simp only [ellipsoid_coord a b c ha hb hc]
  refine ⟨by rw [integral_const_mul, hm, mul_zero], ?_⟩
  have e : ∀ p : (ℝ × ℝ × ℝ) × ℝ, ![a, b, c] i * (dir i p.1 * p.2 ^ ((1 : ℝ) / 3)) * (![a, b, c] j * (dir j p.1 * p.2 ^ ((1 : ℝ) / 3))) =
      (![a, b, c] i * ![a, b, c] j) * (dir i p.1 * dir j p.1 * (p.2 ^ ((1 : ℝ) / 3)) ^ 2) := fun p => by ring
  simp only [e]
  rw [integral_const_mul, ht]
  split
  · next h => subst h; ring
  · ring

theorem between_mean (n k : ℕ) (hn : n ≠ 0) (x X : ℝ) :
    ∫ v, (x + (v * n - k) * (X - x)) * (x + (v * n - k) * (X - x)) ∂((n : ℝ≥0∞) • volume.restrict (Ico ((k : ℝ) / n) ((k + 1 : ℝ) / n))) =
      (x ^ 2 + x * X + X ^ 2) / 3 := by
  have hn0 : (0 : ℝ) < n := by exact_mod_cast Nat.pos_of_ne_zero hn
  have hle : (k : ℝ) / n ≤ (k + 1 : ℝ) / n := div_le_div_of_nonneg_right (by linarith) hn0.le
  rw [integral_smul_measure, integral_Ico_eq_integral_Ioc, ← intervalIntegral.integral_of_le hle]
  have h := intervalIntegral.integral_comp_mul_sub (a := (k : ℝ) / n) (b := (k + 1 : ℝ) / n)
    (fun t => (x + t * (X - x)) * (x + t * (X - x))) hn0.ne' (k : ℝ)
  have e : ∀ v : ℝ, (x + (v * n - k) * (X - x)) * (x + (v * n - k) * (X - x)) =
      (x + ((n : ℝ) * v - k) * (X - x)) * (x + ((n : ℝ) * v - k) * (X - x)) := fun v => by ring
  simp only [e]
  rw [h, show (n : ℝ) * ((k : ℝ) / n) - k = 0 by field_simp; ring, show (n : ℝ) * ((k + 1 : ℝ) / n) - k = 1 by field_simp; ring]
  have hp : ∫ t in (0 : ℝ)..1, (x + t * (X - x)) * (x + t * (X - x)) = (x ^ 2 + x * X + X ^ 2) / 3 := by
    have e2 : ∀ t : ℝ, (x + t * (X - x)) * (x + t * (X - x)) = x ^ 2 + (2 * x * (X - x)) * t + (X - x) ^ 2 * t ^ 2 := fun t => by ring
    simp only [e2]
    rw [intervalIntegral.integral_add (by apply Continuous.intervalIntegrable; fun_prop) (by apply Continuous.intervalIntegrable; fun_prop),
      intervalIntegral.integral_add (by apply Continuous.intervalIntegrable; fun_prop) (by apply Continuous.intervalIntegrable; fun_prop),
      intervalIntegral.integral_const, intervalIntegral.integral_const_mul, intervalIntegral.integral_const_mul, integral_id, integral_pow]
    simp
    ring
  rw [hp]
  simp only [ENNReal.toReal_natCast, smul_eq_mul]
  field_simp

/-- C174. A particle of a shell contributes to the shape tensor, on average, a ninth of `r² + r R + R²` for the semi-axes `r` and `R` of the
two surfaces in that direction, and nothing off the diagonal.  On average it lies at the centre. -/
theorem C174_shell_tensor (s : Axes) (n : Nat) (hs : Shells s n) (k : Nat) (hk : k < n) (i j : Fin 3) :
    ∫ p, coord i (shellParticle s k p) ∂(randomShell n k) = 0 ∧
    ∫ p, coord i (shellParticle s k p) * coord j (shellParticle s k p) ∂(randomShell n k) =
      if i = j then
        (((0 :: ![s.a, s.b, s.c] i).getD k 0) ^ 2 + (0 :: ![s.a, s.b, s.c] i).getD k 0 * (![s.a, s.b, s.c] i).getD k 0 +
          ((![s.a, s.b, s.c] i).getD k 0) ^ 2) / 9
      else 0 := by
  have hn : n ≠ 0 := by omega
  set ν := (n : ℝ≥0∞) • volume.restrict (Ico ((k : ℝ) / n) ((k + 1 : ℝ) / n)) with hν
  have hν2 : ∀ᵐ v ∂ν, v ∈ Ico ((k : ℝ) / n) ((k + 1 : ℝ) / n) :=
    Measure.ae_smul_measure (ae_restrict_mem measurableSet_Ico) _
  have hsf : SFinite ν := by rw [hν]; infer_instance
  have hsp : SFinite randomSpace := by unfold randomSpace; infer_instance
  have hcoord : ∀ᵐ p ∂(randomShell n k), ∀ i, coord i (shellParticle s k p) = dir i p.1.1 * between (![s.a, s.b, s.c] i) k (p.2 * n - k) := by
    unfold randomShell
    have a1 := Measure.quasiMeasurePreserving_fst (μ := randomSpace) (ν := ν) |>.ae almost_surely
    have a2 := Measure.quasiMeasurePreserving_snd (μ := randomSpace) (ν := ν) |>.ae hν2
    filter_upwards [a1, a2] with p q1 q2
    intro i
    rw [show p = ((p.1.1, p.1.2), p.2) from rfl, shell_particle s n hs k hk p.1.1 q1.1 p.1.2 q1.2 p.2 q2.1 q2.2]
    unfold onSurface dir coord
    fin_cases i <;> simp <;> ring
  have hone : ∫ w in Ico (0 : ℝ) 1, (1 : ℝ) = 1 := by simp
  have hdm : ∀ i, ∫ p, dir i p.1 ∂randomSpace = 0 := by
    intro i
    have := mean_product (dir i) fun _ => 1
    simpa [dir_mean] using this
  have hdt : ∀ i j, ∫ p, dir i p.1 * dir j p.1 ∂randomSpace = if i = j then 1 / 3 else 0 := by
    intro i j
    have := mean_product (fun x => dir i x * dir j x) fun _ => 1
    rw [hone, mul_one, dir_tensor] at this
    simpa using this
  constructor
  · rw [integral_congr_ae (hcoord.mono fun p hp => hp i)]
    unfold randomShell
    rw [integral_prod_mul (fun p : (ℝ × ℝ × ℝ) × ℝ => dir i p.1) fun v : ℝ => between (![s.a, s.b, s.c] i) k (v * n - k), hdm, zero_mul]
  · have e : (fun p => coord i (shellParticle s k p) * coord j (shellParticle s k p)) =ᵐ[randomShell n k] fun p =>
        (dir i p.1.1 * dir j p.1.1) * (between (![s.a, s.b, s.c] i) k (p.2 * n - k) * between (![s.a, s.b, s.c] j) k (p.2 * n - k)) := by
      filter_upwards [hcoord] with p hp
      rw [hp i, hp j]
      ring
    rw [integral_congr_ae e]
    unfold randomShell
    rw [integral_prod_mul (fun p : (ℝ × ℝ × ℝ) × ℝ => dir i p.1 * dir j p.1) fun v : ℝ =>
      between (![s.a, s.b, s.c] i) k (v * n - k) * between (![s.a, s.b, s.c] j) k (v * n - k), hdt]
    by_cases h : i = j
    · subst h
      rw [if_pos rfl, if_pos rfl]
      have := between_mean n k hn ((0 :: ![s.a, s.b, s.c] i).getD k 0) ((![s.a, s.b, s.c] i).getD k 0)
      unfold between
      rw [this]
      ring
    · rw [if_neg h, if_neg h, zero_mul]

/-- C174. For similar ellipsoids (the same axis ratios `q` and `r` for all shells) each particle of each shell has these axis ratios on average: the
expected entries of the shape tensor have the ratios `q ^ 2` and `r ^ 2`, whatever the distances. -/
theorem C174_similar (s : Axes) (n : Nat) (hs : Shells s n) (k : Nat) (hk : k < n) (q r : ℝ) (hb : s.b = s.a.map (q * ·))
    (hc : s.c = s.a.map (r * ·)) :
    0 < ∫ p, coord 0 (shellParticle s k p) ^ 2 ∂(randomShell n k) ∧
    ∫ p, coord 1 (shellParticle s k p) ^ 2 ∂(randomShell n k) = q ^ 2 * ∫ p, coord 0 (shellParticle s k p) ^ 2 ∂(randomShell n k) ∧
    ∫ p, coord 2 (shellParticle s k p) ^ 2 ∂(randomShell n k) = r ^ 2 * ∫ p, coord 0 (shellParticle s k p) ^ 2 ∂(randomShell n k) := by
  have t : ∀ i, ∫ p, coord i (shellParticle s k p) ^ 2 ∂(randomShell n k) =
      (((0 :: ![s.a, s.b, s.c] i).getD k 0) ^ 2 + (0 :: ![s.a, s.b, s.c] i).getD k 0 * (![s.a, s.b, s.c] i).getD k 0 +
          ((![s.a, s.b, s.c] i).getD k 0) ^ 2) / 9 := by
    intro i
    have := (C174_shell_tensor s n hs k hk i i).2
    rw [if_pos rfl] at this
    rw [← this]
    simp only [sq]
  have e : ∀ (l : List ℝ) (f : ℝ) (j : ℕ), (l.map (f * ·)).getD j 0 = f * l.getD j 0 := by
    intro l f j
    simp only [List.getD_eq_getElem?_getD, List.getElem?_map]
    cases l[j]? <;> simp
  have e0 : ∀ f : ℝ, (0 :: s.a.map (f * ·)).getD k 0 = f * (0 :: s.a).getD k 0 := by
    intro f
    have := e (0 :: s.a) f k
    simpa using this
  have hla := hs.la
  have hpos : 0 < s.a.getD k 0 := getD_pos hs.pa (by omega)
  have hin : 0 ≤ (0 :: s.a).getD k 0 := by
    cases k with
    | zero => simp
    | succ k => simpa using (getD_pos hs.pa (show k < s.a.length by omega)).le
  have t0 := t 0
  have t1 := t 1
  have t2 := t 2
  simp only [Matrix.cons_val] at t0 t1 t2
  rw [hb, e, e0] at t1
  rw [hc, e, e0] at t2
  refine ⟨?_, ?_, ?_⟩
  · rw [t0]
    have := mul_nonneg hin hpos.le
    positivity
  · rw [t1, t0]; ring
  · rw [t2, t0]; ring

/-! ## Examples -/

/-- Two similar shells with the axis ratios 1/2 and 1/4. -/
def similarShells : Axes := ⟨[4, 8], [2, 4], [1, 2]⟩

theorem similarShells_ok : Shells similarShells 2 := by
  constructor <;> simp [similarShells] <;> norm_num

/-- The particles of the outer shell: the expected tensor is diagonal, with 112/9 for the first axis and a quarter of it for the second. -/
example : ∫ p, coord 0 (shellParticle similarShells 1 p) ^ 2 ∂(randomShell 2 1) = 112 / 9 ∧
    ∫ p, coord 1 (shellParticle similarShells 1 p) ^ 2 ∂(randomShell 2 1) = (1 / 2) ^ 2 * (112 / 9) ∧
    ∫ p, coord 0 (shellParticle similarShells 1 p) * coord 1 (shellParticle similarShells 1 p) ∂(randomShell 2 1) = 0 := by
  have h0 := (C174_shell_tensor similarShells 2 similarShells_ok 1 (by norm_num) 0 0).2
  have h1 := (C174_shell_tensor similarShells 2 similarShells_ok 1 (by norm_num) 0 1).2
  have h := C174_similar similarShells 2 similarShells_ok 1 (by norm_num) (1 / 2) (1 / 4)
    (by simp [similarShells]; norm_num) (by simp [similarShells]; norm_num)
  have e : ∫ p, coord 0 (shellParticle similarShells 1 p) ^ 2 ∂(randomShell 2 1) = 112 / 9 := by
    simp only [sq]
    rw [h0]
    norm_num [similarShells]
  refine ⟨e, ?_, by rw [h1]; simp⟩
  rw [h.2.1, e]

/-- In an ellipsoid with semi-axes 5, 2 and 1. -/
example : ∫ p, coord 0 (ellipsoidPoint 5 2 1 p.1 p.2) * coord 0 (ellipsoidPoint 5 2 1 p.1 p.2) ∂randomSpace = 5 := by
  rw [(C174_ellipsoid_tensor 5 2 1 (by norm_num) (by norm_num) (by norm_num) 0 0).2]
  norm_num

/-- A particle of a spherical shell between the radii 1 and 2 is in the upper half of the shell and within 3/2 with the probability
1/2 times the share of the half-ball. -/
example : randomShell 2 1 {p | shellParticle ⟨[1, 2], [1, 2], [1, 2]⟩ 1 p ∈ {x | 0 < x.2.2} ∧
    distance (shellParticle ⟨[1, 2], [1, 2], [1, 2]⟩ 1 p) ≤ 3 / 2} =
    ENNReal.ofReal (1 / 2) * (volume ({x | 0 < x.2.2} ∩ UnitBall) / volume UnitBall) := by
  have hs : Shells ⟨[1, 2], [1, 2], [1, 2]⟩ 2 := by constructor <;> simp
  have := C174_sphere ⟨[1, 2], [1, 2], [1, 2]⟩ 2 hs (by simp) rfl rfl 1 (by norm_num) {x | 0 < x.2.2}
    (measurableSet_lt measurable_const (by fun_prop)) (by
      intro x r hr
      simp [hr]) (3 / 2) (by norm_num) (by norm_num)
  rw [this]
  norm_num

end Verif.Mock
