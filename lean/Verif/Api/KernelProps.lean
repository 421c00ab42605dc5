import Verif.Api.Kernel

/-!
# Kernel-based density profiles of objects made from arrays (C113)
-/

namespace Verif.Api

open Verif.Units Verif.Catalogue Verif.Periodic Verif.Binning Verif.Par

/-! ## Specification -/

/-- Density of a Gaussian cloud of unit mass and width `h`, at a point whose squared distance from the
middle of the cloud is `s`. -/
noncomputable def cloudDensity (h s : ℝ) : ℝ :=
  1 / ((2 * Real.pi) ^ ((3 : ℝ) / 2) * h ^ 3) * Real.exp (-s / (2 * h ^ 2))

/-- Mean density of such a cloud on a sphere of radius `r`, if the middle of the cloud is at distance `d`
from the centre of the sphere.  On a sphere the cosine `μ` of the polar angle is uniformly distributed
between -1 and 1, and the point at this angle has squared distance `r^2 + d^2 - 2 r d μ` from the middle
of the cloud. -/
noncomputable def sphereAverage (h d r : ℝ) : ℝ :=
  1 / 2 * ∫ μ in (-1 : ℝ)..1, cloudDensity h (r ^ 2 + d ^ 2 - 2 * r * d * μ)

/-- Width of the cloud replacing a particle at distance `d` of an object of size `R200` (Reed et al.). -/
noncomputable def cloudWidth (r200 d : ℝ) : ℝ := 0.005 * r200 * Real.sqrt (d / (0.1 * r200))

/-- Density of an object, each particle replaced by a cloud, averaged over the sphere of radius `r`
around `center`. -/
noncomputable def smoothedDensity (r200 : ℝ) (center : Vec ℝ) (ps : List (Particle ℝ)) (r : ℝ) : ℝ :=
  (ps.map fun p => p.mass *
    sphereAverage (cloudWidth r200 (radius center p)) (radius center p) r).sum

/-! ## The kernel -/

theorem kernelWidth_eq (r200 d : ℝ) : kernelWidth r200 d = cloudWidth r200 d := by
  unfold kernelWidth cloudWidth
  rw [Real.sqrt_eq_rpow]; norm_num

theorem integral_exp_mul (k : ℝ) (hk : k ≠ 0) :
    ∫ μ in (-1 : ℝ)..1, Real.exp (k * μ) = (Real.exp k - Real.exp (-k)) / k := by
  have := intervalIntegral.integral_comp_mul_left (a := (-1 : ℝ)) (b := 1) (fun x => Real.exp x) hk
  rw [this]
  simp [integral_exp]
  field_simp

/-- The kernel is the average of a Gaussian cloud over the sphere. -/
theorem kTilde_eq (r d h : ℝ) (hr : 0 < r) (hd : 0 < d) (hh : 0 < h) :
    kTilde r d h / h ^ 3 = sphereAverage h d r := by
  unfold sphereAverage cloudDensity kTilde
  have hk : r * d / h ^ 2 ≠ 0 := by positivity
  have heq : ∀ μ : ℝ, 1 / ((2 * Real.pi) ^ ((3 : ℝ) / 2) * h ^ 3) *
      Real.exp (-(r ^ 2 + d ^ 2 - 2 * r * d * μ) / (2 * h ^ 2)) =
      (1 / ((2 * Real.pi) ^ ((3 : ℝ) / 2) * h ^ 3) * Real.exp (-(r ^ 2 + d ^ 2) / (2 * h ^ 2))) *
        Real.exp (r * d / h ^ 2 * μ) := by
    intro μ
    rw [mul_assoc (1 / ((2 * Real.pi) ^ ((3 : ℝ) / 2) * h ^ 3)), ← Real.exp_add]
    congr 2
    field_simp
    ring
  simp only [heq]
  rw [intervalIntegral.integral_const_mul, integral_exp_mul _ hk]
  have e1 : Real.exp (-(d - r) ^ 2 / (2 * h ^ 2)) =
      Real.exp (-(r ^ 2 + d ^ 2) / (2 * h ^ 2)) * Real.exp (r * d / h ^ 2) := by
    rw [← Real.exp_add]; congr 1; field_simp; ring
  have e2 : Real.exp (-(d + r) ^ 2 / (2 * h ^ 2)) =
      Real.exp (-(r ^ 2 + d ^ 2) / (2 * h ^ 2)) * Real.exp (-(r * d / h ^ 2)) := by
    rw [← Real.exp_add]; congr 1; field_simp; ring
  rw [e1, e2]
  have hp : (2 * Real.pi) ^ ((3 : ℝ) / 2) ≠ 0 := (Real.rpow_pos_of_pos (by positivity) _).ne'
  generalize Real.exp (r * d / h ^ 2) = x
  generalize Real.exp (-(r * d / h ^ 2)) = y
  generalize (2 * Real.pi) ^ ((3 : ℝ) / 2) = q at *
  field_simp

theorem kernelWidth_at_zero (r200 : ℝ) : kernelWidth r200 0 = 0 := by
  unfold kernelWidth
  rw [zero_div, Real.zero_rpow (by norm_num), mul_zero]

theorem kernelWidth_zero (r200 d : ℝ) (hr : 0 < r200) (hd : 0 ≤ d) :
    kernelWidth r200 d = 0 ↔ d = 0 := by
  constructor
  · intro h
    by_contra hne
    exact (kernelWidth_pos r200 d hr (lt_of_le_of_ne hd (Ne.symm hne))).ne' h
  · rintro rfl
    exact kernelWidth_at_zero r200

theorem kernelWidth_scale (f r200 d : ℝ) (hf : 0 < f) (hr : 0 < r200) :
    kernelWidth (r200 * f) (d * f) = kernelWidth r200 d * f := by
  unfold kernelWidth
  have : d * f / (0.1 * (r200 * f)) = d / (0.1 * r200) := by field_simp
  rw [this]; ring

theorem kTilde_scale (f r d h : ℝ) (hf : 0 < f) : kTilde (r * f) (d * f) (h * f) = kTilde r d h := by
  unfold kTilde
  have e1 : -(d * f - r * f) ^ 2 / (2 * (h * f) ^ 2) = -(d - r) ^ 2 / (2 * h ^ 2) := by
    rw [show -(d * f - r * f) ^ 2 = -(d - r) ^ 2 * f ^ 2 by ring,
      show 2 * (h * f) ^ 2 = 2 * h ^ 2 * f ^ 2 by ring, mul_div_mul_right _ _ (by positivity)]
  have e2 : -(d * f + r * f) ^ 2 / (2 * (h * f) ^ 2) = -(d + r) ^ 2 / (2 * h ^ 2) := by
    rw [show -(d * f + r * f) ^ 2 = -(d + r) ^ 2 * f ^ 2 by ring,
      show 2 * (h * f) ^ 2 = 2 * h ^ 2 * f ^ 2 by ring, mul_div_mul_right _ _ (by positivity)]
  have e3 : r * f * (d * f) / (h * f) ^ 2 = r * d / h ^ 2 := by
    rw [show r * f * (d * f) = r * d * f ^ 2 by ring, mul_pow, mul_div_mul_right _ _ (by positivity)]
  rw [e1, e2, e3]

/-- The kernel sum of an object in scaled units. -/
theorem densKernel_scale (f g r200 : ℝ) (hf : 0 < f) (hr : 0 < r200) (v : Vec ℝ)
    (ps : List (Particle ℝ)) (r : ℝ) :
    densKernel (r200 * f) ((ps.map (scale f g)).map fun p => (p.mass, radius (fun a => v a * f) p))
      (r * f) =
    densKernel r200 (ps.map fun p => (p.mass, radius v p)) r * (g / f ^ 3) := by
  rw [densKernel_eq_sum, densKernel_eq_sum, ← List.sum_map_mul_right]
  simp only [List.map_map]
  congr 1
  apply List.map_congr_left
  intro p _
  simp only [Function.comp, radius_scale f g hf, kernelWidth_scale f _ _ hf hr, kTilde_scale f _ _ _ hf]
  simp only [scale, mul_pow]
  field_simp

theorem densKernel_smoothed (r200 : ℝ) (hr : 0 < r200) (v : Vec ℝ) (ps : List (Particle ℝ))
    (hd : ∀ p ∈ ps, 0 < radius v p) (r : ℝ) (hr' : 0 < r) :
    densKernel r200 (ps.map fun p => (p.mass, radius v p)) r = smoothedDensity r200 v ps r := by
  rw [densKernel_eq_sum]
  unfold smoothedDensity
  rw [List.map_map]
  congr 1
  apply List.map_congr_left
  intro p hp
  simp only [Function.comp]
  rw [mul_div_assoc, kTilde_eq r _ _ hr' (hd p hp) (kernelWidth_pos r200 _ hr (hd p hp)),
    kernelWidth_eq]

theorem smoothed_mass (r200 : ℝ) (hr : 0 < r200) (v : Vec ℝ) (ps : List (Particle ℝ))
    (hd : ∀ p ∈ ps, 0 < radius v p) :
    ∫ r in Set.Ioi (0 : ℝ), 4 * Real.pi * r ^ 2 * smoothedDensity r200 v ps r = totalMass ps := by
  have := (C77_total_mass r200 hr (ps.map fun p => (p.mass, radius v p)) (by
    intro md hmd
    obtain ⟨p, hp, rfl⟩ := List.mem_map.1 hmd
    exact hd p hp)).1
  rw [List.map_map] at this
  rw [show totalMass ps = (ps.map ((fun md : ℝ × ℝ => md.1) ∘ fun p => (p.mass, radius v p))).sum from
    rfl, ← this]
  apply MeasureTheory.setIntegral_congr_fun measurableSet_Ioi
  intro r hr'
  simp only
  rw [densKernel_smoothed r200 hr v ps hd r hr']

/-! ## The loops -/

theorem kernelBody_result (r200 r : ℝ) (mds : List (ℝ × ℝ)) (u : Unit) (a : Option ℝ) :
    runBody (kernelBody r200 r mds) (u, a) = (u,
      if ∃ md ∈ mds, kernelWidth r200 md.2 = 0 then none
      else a.map fun a => a + densKernel r200 mds r) := by
  induction mds generalizing a with
  | nil => simp [runBody, kernelBody, densKernel]
  | cons md mds ih =>
    have hstep : runBody (kernelBody r200 r (md :: mds)) (u, a) =
        runBody (kernelBody r200 r mds) (kernelStep r200 r md (u, a)) := rfl
    rw [hstep]
    have hpair : kernelStep r200 r md (u, a) = (u, a.bind fun acc =>
        if kernelWidth r200 md.2 = 0 then none
        else some (acc + md.1 * kTilde r md.2 (kernelWidth r200 md.2) /
          kernelWidth r200 md.2 ^ 3)) := rfl
    rw [hpair, ih]
    by_cases h0 : kernelWidth r200 md.2 = 0
    · have : ∃ m ∈ md :: mds, kernelWidth r200 m.2 = 0 := ⟨md, by simp, h0⟩
      rw [if_pos this]
      cases a <;> simp [h0]
    · by_cases h : ∃ m ∈ mds, kernelWidth r200 m.2 = 0
      · have : ∃ m ∈ md :: mds, kernelWidth r200 m.2 = 0 := by
          obtain ⟨m, hm, h⟩ := h; exact ⟨m, by simp [hm], h⟩
        rw [if_pos this, if_pos h]
      · have : ¬ ∃ m ∈ md :: mds, kernelWidth r200 m.2 = 0 := by
          rintro ⟨m, hm, hz⟩
          rcases List.mem_cons.1 hm with rfl | hm
          · exact h0 hz
          · exact h ⟨m, hm, hz⟩
        rw [if_neg this, if_neg h]
        cases a with
        | none => rfl
        | some a =>
          simp only [Option.bind_some, if_neg h0, Option.map_some]
          rw [densKernel_eq_sum, densKernel_eq_sum, List.map_cons, List.sum_cons]
          congr 2
          ring

/-- The parallel loop over radii, whatever the schedule. -/
theorem kernelRow_result (r200 : ℝ) (radii : List ℝ) (mds : List (ℝ × ℝ))
    (ws : List (Step Nat Nat Unit (Option ℝ)))
    (ex : Execution (fun i => (radii[i]?.map fun r => kernelBody r200 (r * r200) mds).getD [])
      (List.range radii.length) ws) :
    (List.range radii.length).mapM (runSteps ws ⟨fun _ => (), fun _ => some 0⟩).out =
      if radii ≠ [] ∧ ∃ md ∈ mds, kernelWidth r200 md.2 = 0 then none
      else some (radii.map fun r => densKernel r200 mds (r * r200)) := by
  have key := (execution_result _ _ ws ex ⟨fun _ => (), fun _ => some 0⟩ (fun _ => True)
    (fun _ => trivial) (fun i => if ∃ md ∈ mds, kernelWidth r200 md.2 = 0 then none
      else some (densKernel r200 mds (radii[i]?.getD 0 * r200))) (by
      intro i hi s _
      refine ⟨trivial, ?_⟩
      have hi : i < radii.length := by simpa using hi
      rw [List.getElem?_eq_getElem hi]
      simp only [Option.map_some, Option.getD_some]
      rw [kernelBody_result]
      simp)).1
  have hcongr : (List.range radii.length).mapM (runSteps ws ⟨fun _ => (), fun _ => some 0⟩).out =
      (List.range radii.length).mapM fun i => if ∃ md ∈ mds, kernelWidth r200 md.2 = 0 then none
      else some (densKernel r200 mds (radii[i]?.getD 0 * r200)) := by
    have gen : ∀ (l : List Nat) (F G : Nat → Option ℝ), (∀ i ∈ l, F i = G i) → l.mapM F = l.mapM G := by
      intro l F G
      induction l with
      | nil => intro _; rfl
      | cons i l ih =>
        intro h
        rw [List.mapM_cons, List.mapM_cons, h i (by simp), ih fun j hj => h j (by simp [hj])]
    exact gen _ _ _ key
  rw [hcongr]
  by_cases h : ∃ md ∈ mds, kernelWidth r200 md.2 = 0
  · simp only [if_pos h]
    cases radii with
    | nil => simp
    | cons r radii =>
      rw [if_pos ⟨by simp, h⟩, List.length_cons, List.range_succ_eq_map, List.mapM_cons]
      rfl
  · rw [if_neg fun h' => h h'.2]
    simp only [if_neg h]
    have hp : ∀ (l : List Nat) (F : Nat → ℝ), l.mapM (fun i => some (F i)) = some (l.map F) := by
      intro l F
      induction l with
      | nil => rfl
      | cons i l ih => rw [List.mapM_cons, ih]; rfl
    rw [hp]
    congr 1
    apply List.ext_getElem?
    intro i
    by_cases hi : i < radii.length
    · simp [hi]
    · simp [hi]

theorem kernelLoop_spec (choose : Nat → List Nat) (limit : Nat) (L : ℝ) (center : Center)
    (radii : List ℝ) (objs : List (List (Particle ℝ) × ℝ)) (out : Except KernelErr (List (List ℝ)))
    (h : KernelLoop choose limit L center radii objs out) :
    (out = .error (.base .recursion) ∧ ∃ o ∈ objs, centreOf choose limit L center o.1 = none) ∨
    (out = .error .zeroDivision ∧ ∃ o ∈ objs, ∃ v, centreOf choose limit L center o.1 = some v ∧
      ∃ md ∈ massDistances L v o.1, kernelWidth o.2 md.2 = 0) ∨
    ∃ rows, out = .ok rows ∧ rows.length = objs.length ∧
      ∀ (k : Nat) (o : List (Particle ℝ) × ℝ), objs[k]? = some o →
      ∃ v, centreOf choose limit L center o.1 = some v ∧
        rows[k]? = some (radii.map fun r => densKernel o.2 (massDistances L v o.1) (r * o.2)) ∧
        (radii ≠ [] → ∀ md ∈ massDistances L v o.1, kernelWidth o.2 md.2 ≠ 0) := by
  induction h with
  | nil => exact .inr (.inr ⟨[], rfl, rfl, by simp⟩)
  | diverges ps r200 rest h => exact .inl ⟨rfl, (ps, r200), List.mem_cons_self, h⟩
  | raises ps r200 rest v h ws ex hrow =>
    rw [kernelRow_result r200 radii _ ws ex] at hrow
    split at hrow
    · next hz => exact .inr (.inl ⟨rfl, (ps, r200), List.mem_cons_self, v, h, hz.2⟩)
    · cases hrow
  | next ps r200 rest v h ws ex row hrow res hrest ih =>
    rw [kernelRow_result r200 radii _ ws ex] at hrow
    split at hrow
    · cases hrow
    · next hz =>
      have hrow := Option.some.inj hrow
      rcases ih with ⟨rfl, o, ho, hc⟩ | ⟨rfl, o, ho, hc⟩ | ⟨rows, rfl, hlen, hk⟩
      · exact .inl ⟨rfl, o, by simp [ho], hc⟩
      · exact .inr (.inl ⟨rfl, o, by simp [ho], hc⟩)
      · refine .inr (.inr ⟨_, rfl, by simp [hlen], ?_⟩)
        intro k o ho
        cases k with
        | zero =>
          simp only [List.getElem?_cons_zero, Option.some.injEq] at ho
          subst ho
          refine ⟨v, h, by rw [← hrow]; rfl, ?_⟩
          intro hne md hmd h0
          exact hz ⟨hne, md, hmd, h0⟩
        | succ k => simpa using hk k o (by simpa using ho)

/-! ## C113 -/

/-- C113 (partial). Take sensible data, make an object of it and ask for kernel-based density profiles
of a good selection at positive radii.  Whatever the schedule of the parallel loops, either the centre of
an object cannot be found (`CENTER = 'mode'` only), or ZeroDivisionError is raised, which happens only if
an object has a particle exactly at its centre or crosses a face of the box; or row `k` belongs to the
`k`-th selected object.  If this object does not cross a face of the box, the `b`-th entry, as a physical
quantity, is the density of the object at the `b`-th radius, each particle replaced by a Gaussian cloud,
averaged over the sphere, around the mean position of the particles (of all for `CENTER = 'com'`, of some
for `'mode'`); this density profile integrates to the mass of the object.  Missing: objects crossing a
face of the box (C24, C96), objects with a particle at the centre (`C113_particle_at_centre_refuted`). -/
theorem C113_kernel_partial (c c' : Cfg ℝ) (hc : c.Pos) (hc' : c'.Pos) (hh : c'.h = c.h)
    (xyz : List (Vec ℝ)) (masses : List ℝ) (box : ℝ) (objs : List (List Nat × ℝ)) (minPtcs : Int)
    (hmin : 1 ≤ minPtcs) (center : Center) (hs : Sensible xyz masses box objs)
    (hr200 : ∀ o ∈ objs, 0 < o.2)
    (choose : Nat → List Nat) (hch : ∀ n, 0 < n → ∃ j ∈ choose n, j < n) (limit : Nat) (o : Obj)
    (ho : construct c ⟨xyz, masses, .nested (objs.map Prod.fst), .array (objs.map Prod.snd), box,
      minPtcs, center⟩ = .ok o)
    (radii : List ℝ) (hradii : radii ≠ []) (hpos : ∀ r ∈ radii, 0 < r)
    (sel : List Int) (hsel : GoodSelection sel (resolved minPtcs objs).length)
    (out : Except KernelErr (List (List ℝ)))
    (hrun : EstDensProfsKernel c' choose limit o radii sel out) :
    (out = .error (.base .recursion) ∧ center = .mode) ∨
    (out = .error .zeroDivision ∧ ∃ z ∈ sel, ∃ obj, (resolved minPtcs objs)[z.toNat]? = some obj ∧
      (NotCrossing box (particlesOf xyz masses obj.1) →
        ∃ sub, sub.Sublist (particlesOf xyz masses obj.1) ∧ sub ≠ [] ∧
          (center = .com → sub = particlesOf xyz masses obj.1) ∧
          ∃ p ∈ particlesOf xyz masses obj.1, p.pos = weightedMean sub)) ∨
    ∃ res, out = .ok res ∧ res.length = sel.length ∧
      ∀ (k : Nat) (z : Int) (obj : List Nat × ℝ), sel[k]? = some z →
        (resolved minPtcs objs)[z.toNat]? = some obj →
        NotCrossing box (particlesOf xyz masses obj.1) →
        ∃ row : List ℝ, res[k]? = some row ∧ row.length = radii.length ∧
        ∃ sub, sub.Sublist (particlesOf xyz masses obj.1) ∧ sub ≠ [] ∧
          (center = .com → sub = particlesOf xyz masses obj.1) ∧
          (∀ p ∈ particlesOf xyz masses obj.1, p.pos ≠ weightedMean sub) ∧
          (∀ (b : Nat) (dens r : ℝ), row[b]? = some dens → radii[b]? = some r →
            dens * (c'.outM / c'.outL ^ 3) =
              smoothedDensity obj.2 (weightedMean sub) (particlesOf xyz masses obj.1) (r * obj.2) *
                (c.inM / c.inL ^ 3)) ∧
          ∫ r in Set.Ioi (0 : ℝ), 4 * Real.pi * r ^ 2 *
            smoothedDensity obj.2 (weightedMean sub) (particlesOf xyz masses obj.1) r =
            totalMass (particlesOf xyz masses obj.1) := by
  have ho := Except.ok.inj ((construct_eq c xyz masses box objs minPtcs center hs.lengths
    hs.objects).symm.trans ho)
  have hl := mpch_pos hc.h
  have hms := msunh10_pos hc.h
  have hfp : 0 < c.inL / mpch c.h := div_pos hc.inL hl
  have hgp : 0 < c.inM / msunh10 c.h := div_pos hc.inM hms
  have hobox : o.box = box * (c.inL / mpch c.h) := by rw [← ho]
  set f := c.inL / mpch c.h with hf
  set g := c.inM / msunh10 c.h with hg
  have hocen : o.center = center := by rw [← ho]
  have hor : o.r200 = (resolved minPtcs objs).map fun o => o.2 * f := by rw [← ho]
  have hLpos : 0 < box * f := mul_pos hs.box_pos hfp
  obtain ⟨parts', hsp, hplen, hpk'⟩ := selected f g xyz masses box objs minPtcs hmin hs o
    (by rw [← ho]) (by rw [← ho]) (by rw [← ho]) (by rw [← ho]) sel hsel
  -- objects of the loop
  have hobj : ∀ r200, fancy o.r200 (sel.map Int.toNat) = some r200 →
      ∀ (k : Nat) (z : Int) (obj : List Nat × ℝ), sel[k]? = some z →
        (resolved minPtcs objs)[z.toNat]? = some obj →
      (parts'.zip r200)[k]? = some ((particlesOf xyz masses obj.1).map (scale f g), obj.2 * f) := by
    intro r200 hr k z obj hk hob
    rw [List.getElem?_zip_eq_some]
    refine ⟨(hpk' k z obj hk hob).1, ?_⟩
    obtain ⟨r, h1, h2⟩ := (mapM_some_get _ _ _ hr).2 k z.toNat (by
      rw [List.getElem?_map, hk]; rfl)
    rw [hor, List.getElem?_map, hob] at h2
    rw [h1, ← Option.some.inj h2]
  have hmem : ∀ r200, fancy o.r200 (sel.map Int.toNat) = some r200 →
      ∀ d ∈ parts'.zip r200, ∃ z ∈ sel, ∃ obj, (resolved minPtcs objs)[z.toNat]? = some obj ∧
        d = ((particlesOf xyz masses obj.1).map (scale f g), obj.2 * f) ∧
        particlesOf xyz masses obj.1 ≠ [] := by
    intro r200 hr d hd
    obtain ⟨k, hk⟩ := List.mem_iff_getElem?.1 hd
    have hklt : k < sel.length := by
      rw [← hplen]
      exact (List.getElem?_eq_some_iff.1 (List.getElem?_zip_eq_some.1 hk).1).1
    obtain ⟨z, hzk⟩ : ∃ z, sel[k]? = some z := ⟨_, List.getElem?_eq_getElem hklt⟩
    have hz := hsel.2.2 z (List.mem_of_getElem? hzk)
    have hzlt : z.toNat < (resolved minPtcs objs).length := by omega
    obtain ⟨obj, hob⟩ : ∃ obj, (resolved minPtcs objs)[z.toNat]? = some obj :=
      ⟨_, List.getElem?_eq_getElem hzlt⟩
    refine ⟨z, List.mem_of_getElem? hzk, obj, hob, ?_, (hpk' k z obj hzk hob).2⟩
    rw [hobj r200 hr k z obj hzk hob] at hk
    exact (Option.some.inj hk).symm
  -- the centre of an object not crossing a face
  have hcentre : ∀ obj : List Nat × ℝ, particlesOf xyz masses obj.1 ≠ [] →
      NotCrossing box (particlesOf xyz masses obj.1) → ∀ v,
      centreOf choose limit (box * f) center ((particlesOf xyz masses obj.1).map (scale f g)) = some v →
      ∃ sub, sub.Sublist (particlesOf xyz masses obj.1) ∧ sub ≠ [] ∧
        (center = .com → sub = particlesOf xyz masses obj.1) ∧
        (v = fun a => weightedMean sub a * f) ∧
        massDistances (box * f) v ((particlesOf xyz masses obj.1).map (scale f g)) =
          ((particlesOf xyz masses obj.1).map (scale f g)).map fun p => (p.mass, radius v p) := by
    intro obj hpne hnc v hcv
    have hchk : ∃ j ∈ choose ((particlesOf xyz masses obj.1).map (scale f g)).length,
        j < ((particlesOf xyz masses obj.1).map (scale f g)).length := by
      refine hch _ ?_
      simpa [List.length_pos_iff] using hpne
    obtain ⟨⟨sub, hsub1, hsub2, hsub3, hv⟩, -⟩ := centre_spec choose limit (box * f) hLpos center _
      (by simpa using hpne) (by
        intro p hp a
        obtain ⟨q, hq, rfl⟩ := List.mem_map.1 hp
        have := hs.inside _ (mem_particlesOf hq).1 a
        exact ⟨mul_nonneg this.1 hfp.le, mul_lt_mul_of_pos_right this.2 hfp⟩)
      (by
        intro p hp
        obtain ⟨q, hq, rfl⟩ := List.mem_map.1 hp
        exact mul_pos (hs.masses_pos _ (mem_particlesOf hq).2) hgp)
      hchk v hcv
    have hnc' := notCrossing_scale box f g hfp _ hnc
    rw [unwrapped_of_notCrossing choose (box * f) hLpos _ hchk hnc'] at hsub1 hsub3
    obtain ⟨sub', hsub', rfl⟩ := List.sublist_map_iff.1 hsub1
    refine ⟨sub', hsub', by simpa using hsub2, ?_, ?_, ?_⟩
    · intro hcom
      have hinj : Function.Injective (scale f g) := by
        intro p q hpq
        have h2 := congrArg (scale f⁻¹ g⁻¹) hpq
        rwa [scale_scale, scale_scale, mul_inv_cancel₀ hfp.ne', mul_inv_cancel₀ hgp.ne', scale_one,
          scale_one] at h2
      exact hinj.list_map (hsub3 hcom)
    · rw [hv]; funext a; exact weightedMean_scale f g hgp.ne' sub' a
    · unfold massDistances
      rw [cy_of_notCrossing (box * f) hLpos _ hnc']
  have hradius : ∀ (v : Vec ℝ) (p : Particle ℝ), radius v p = 0 → p.pos = v := by
    intro v p h0
    have hz := (Real.sqrt_eq_zero (by positivity)).1 h0
    funext a
    have h1 : (v 0 - p.pos 0) ^ 2 = 0 := by nlinarith [sq_nonneg (v 0 - p.pos 0), sq_nonneg (v 1 - p.pos 1), sq_nonneg (v 2 - p.pos 2)]
    have h2 : (v 1 - p.pos 1) ^ 2 = 0 := by nlinarith [sq_nonneg (v 0 - p.pos 0), sq_nonneg (v 1 - p.pos 1), sq_nonneg (v 2 - p.pos 2)]
    have h3 : (v 2 - p.pos 2) ^ 2 = 0 := by nlinarith [sq_nonneg (v 0 - p.pos 0), sq_nonneg (v 1 - p.pos 1), sq_nonneg (v 2 - p.pos 2)]
    have h1 := pow_eq_zero_iff (two_ne_zero) |>.1 h1
    have h2 := pow_eq_zero_iff (two_ne_zero) |>.1 h2
    have h3 := pow_eq_zero_iff (two_ne_zero) |>.1 h3
    fin_cases a
    · show p.pos 0 = v 0; linarith
    · show p.pos 1 = v 1; linarith
    · show p.pos 2 = v 2; linarith
  have hR : ∀ (i : Nat) (obj : List Nat × ℝ), (resolved minPtcs objs)[i]? = some obj → 0 < obj.2 :=
    fun i obj h => hr200 obj (List.mem_of_mem_filter (List.mem_of_getElem? h))
  cases hrun with
  | rejected e h => rw [hsp] at h; cases h
  | raises parts h r200 hr e hloop =>
    rw [hsp] at h
    obtain rfl := Except.ok.inj h
    rw [hobox, hocen] at hloop
    rcases kernelLoop_spec _ _ _ _ _ _ _ hloop with ⟨he, d, hd, hcd⟩ | ⟨he, d, hd, v, hcv, md, hmd, hz⟩ |
      ⟨rows, he, -⟩
    · left
      refine ⟨he, ?_⟩
      unfold centreOf at hcd
      cases center with
      | mode => rfl
      | com => cases hcd
    · right; left
      refine ⟨he, ?_⟩
      obtain ⟨z, hzs, obj, hob, rfl, hpne⟩ := hmem r200 hr d hd
      refine ⟨z, hzs, obj, hob, fun hnc => ?_⟩
      obtain ⟨sub, h1, h2, h3, hv, hmd'⟩ := hcentre obj hpne hnc v hcv
      refine ⟨sub, h1, h2, h3, ?_⟩
      rw [hmd'] at hmd
      obtain ⟨q, hq, rfl⟩ := List.mem_map.1 hmd
      obtain ⟨p, hp, rfl⟩ := List.mem_map.1 hq
      simp only at hz
      rw [hv, radius_scale f g hfp, kernelWidth_scale f _ _ hfp (hR _ _ hob)] at hz
      have hz0 : kernelWidth obj.2 (radius (weightedMean sub) p) = 0 := by
        rcases mul_eq_zero.1 hz with h | h
        · exact h
        · exact absurd h hfp.ne'
      have hz0 := (kernelWidth_zero _ _ (hR _ _ hob) (Real.sqrt_nonneg _)).1 hz0
      exact ⟨p, hp, hradius _ p hz0⟩
    · cases he
  | finished parts h r200 hr rows hloop res hout =>
    rw [hsp] at h
    obtain rfl := Except.ok.inj h
    rw [hobox, hocen] at hloop
    right; right
    rcases kernelLoop_spec _ _ _ _ _ _ _ hloop with ⟨he, -⟩ | ⟨he, -⟩ | ⟨rows', he, hlen, hrows⟩
    · cases he
    · cases he
    obtain rfl := Except.ok.inj he
    have hrlen : r200.length = sel.length := by
      have := (mapM_some_get _ _ _ hr).1; simpa using this
    refine ⟨res, rfl, ?_, ?_⟩
    · rw [(mapM_some_get _ _ _ hout).1, hlen]; simp [hplen, hrlen]
    intro k z obj hk hob hnc
    obtain ⟨v, hcv, hrow, hne⟩ := hrows k _ (hobj r200 hr k z obj hk hob)
    obtain ⟨sub, h1, h2, h3, hv, hmd⟩ := hcentre obj (hpk' k z obj hk hob).2 hnc v hcv
    obtain ⟨row, hrow1, hrow2⟩ := (mapM_some_get _ _ _ hout).2 k _ hrow
    have hRk := hR _ _ hob
    have hdist : ∀ p ∈ particlesOf xyz masses obj.1, 0 < radius (weightedMean sub) p := by
      intro p hp
      refine lt_of_le_of_ne (Real.sqrt_nonneg _) fun h0 => ?_
      have := hne hradii (p.mass * g, radius v (scale f g p)) (by
        simp only [hmd]
        exact List.mem_map.2 ⟨_, List.mem_map_of_mem hp, rfl⟩)
      simp only [hv] at this
      rw [radius_scale f g hfp, ← h0, zero_mul] at this
      exact this (kernelWidth_at_zero _)
    obtain ⟨out', ho1, ho2⟩ := C15_reported_density c' hc'
      (radii.map fun r => densKernel (obj.2 * f) (massDistances (box * f) v
        ((particlesOf xyz masses obj.1).map (scale f g))) (r * (obj.2 * f)))
    simp only at hrow2
    rw [ho1] at hrow2
    obtain rfl : out' = row := Option.some.inj hrow2
    refine ⟨out', hrow1, by rw [← ho2.length_eq]; simp, sub, h1, h2, h3, ?_, ?_,
      smoothed_mass _ hRk _ _ hdist⟩
    · intro p hp h0
      have := hdist p hp
      unfold radius at this
      rw [h0] at this
      simp at this
    intro b dens r hb hrb
    obtain ⟨hblt, rfl⟩ := List.getElem?_eq_some_iff.1 hb
    obtain ⟨hrlt, rfl⟩ := List.getElem?_eq_some_iff.1 hrb
    have h4 := (List.forall₂_iff_get.1 ho2).2 b (by simpa using hrlt) hblt
    simp only [List.get_eq_getElem, List.getElem_map] at h4
    rw [h4, hmd, hv, ← mul_assoc, densKernel_scale f g _ hfp hRk,
      densKernel_smoothed _ hRk _ _ hdist _ (mul_pos (hpos _ (List.getElem_mem hrlt)) hRk), hh]
    have e3 := hc.inL.ne'
    have e4 := hl.ne'
    have e5 := hms.ne'
    rw [hf, hg]
    field_simp

theorem kernelLoop_exists (choose : Nat → List Nat) (limit : Nat) (L : ℝ) (center : Center)
    (radii : List ℝ) (objs : List (List (Particle ℝ) × ℝ)) :
    ∃ out, KernelLoop choose limit L center radii objs out := by
  induction objs with
  | nil => exact ⟨_, .nil⟩
  | cons d rest ih =>
    obtain ⟨ps, r200⟩ := d
    cases h : centreOf choose limit L center ps with
    | none => exact ⟨_, .diverges ps r200 rest h⟩
    | some v =>
      have ex := Execution.oneThread (fun i => (radii[i]?.map fun r =>
        kernelBody r200 (r * r200) (massDistances L v ps)).getD []) (List.range radii.length)
        List.nodup_range (0 : Nat)
      generalize hws : threadSteps (fun i => (radii[i]?.map fun r =>
        kernelBody r200 (r * r200) (massDistances L v ps)).getD []) (0 : Nat)
        (List.range radii.length) = ws at ex
      cases hrow : (List.range radii.length).mapM (runSteps ws ⟨fun _ => (), fun _ => some 0⟩).out with
      | none => exact ⟨_, .raises ps r200 rest v h _ ex hrow⟩
      | some row =>
        obtain ⟨res, hres⟩ := ih
        exact ⟨_, .next ps r200 rest v h _ ex row hrow res hres⟩

/-- The call of C113 has an outcome. -/
theorem C113_outcome_exists (c c' : Cfg ℝ)
    (xyz : List (Vec ℝ)) (masses : List ℝ) (box : ℝ) (objs : List (List Nat × ℝ)) (minPtcs : Int)
    (hmin : 1 ≤ minPtcs) (center : Center) (hs : Sensible xyz masses box objs)
    (choose : Nat → List Nat) (limit : Nat) (o : Obj)
    (ho : construct c ⟨xyz, masses, .nested (objs.map Prod.fst), .array (objs.map Prod.snd), box,
      minPtcs, center⟩ = .ok o)
    (radii : List ℝ) (sel : List Int) (hsel : GoodSelection sel (resolved minPtcs objs).length) :
    ∃ out, EstDensProfsKernel c' choose limit o radii sel out := by
  have ho := Except.ok.inj ((construct_eq c xyz masses box objs minPtcs center hs.lengths
    hs.objects).symm.trans ho)
  obtain ⟨parts, hsp, -, -⟩ := selected _ _ xyz masses box objs minPtcs hmin hs o
    (by rw [← ho]) (by rw [← ho]) (by rw [← ho]) (by rw [← ho]) sel hsel
  obtain ⟨r200, hr⟩ : ∃ r, fancy o.r200 (sel.map Int.toNat) = some r := by
    apply mapM_exists
    intro i hi
    obtain ⟨z, hz, rfl⟩ := List.mem_map.1 hi
    have := hsel.2.2 z hz
    refine ⟨_, List.getElem?_eq_getElem ?_⟩
    rw [← ho]
    simp only [List.length_map]
    omega
  obtain ⟨res, hl⟩ := kernelLoop_exists choose limit o.box o.center radii (parts.zip r200)
  cases res with
  | error e => exact ⟨_, .raises parts hsp r200 hr e hl⟩
  | ok rows =>
    obtain ⟨out, hout⟩ := mapM_exists (fun row => (estOut c' row).toOption) rows (by
      intro row _
      unfold estOut
      rw [internalLM_eq]
      exact ⟨_, rfl⟩)
    exact ⟨_, .finished parts hsp r200 hr rows hl out hout⟩

/-- If a selected object has a particle exactly at its centre of mass (and does not cross a face), the
whole call fails, with `CENTER = 'com'`: no profile of any object is returned. -/
theorem C113_particle_at_centre (c c' : Cfg ℝ) (hc : c.Pos) (hc' : c'.Pos) (hh : c'.h = c.h)
    (xyz : List (Vec ℝ)) (masses : List ℝ) (box : ℝ) (objs : List (List Nat × ℝ)) (minPtcs : Int)
    (hmin : 1 ≤ minPtcs) (hs : Sensible xyz masses box objs) (hr200 : ∀ o ∈ objs, 0 < o.2)
    (choose : Nat → List Nat) (hch : ∀ n, 0 < n → ∃ j ∈ choose n, j < n) (limit : Nat) (o : Obj)
    (ho : construct c ⟨xyz, masses, .nested (objs.map Prod.fst), .array (objs.map Prod.snd), box,
      minPtcs, .com⟩ = .ok o)
    (radii : List ℝ) (hradii : radii ≠ []) (hpos : ∀ r ∈ radii, 0 < r)
    (sel : List Int) (hsel : GoodSelection sel (resolved minPtcs objs).length)
    (z : Int) (hz : z ∈ sel) (obj : List Nat × ℝ) (hobj : (resolved minPtcs objs)[z.toNat]? = some obj)
    (hnc : NotCrossing box (particlesOf xyz masses obj.1))
    (hp : ∃ p ∈ particlesOf xyz masses obj.1, p.pos = weightedMean (particlesOf xyz masses obj.1))
    (out : Except KernelErr (List (List ℝ)))
    (hrun : EstDensProfsKernel c' choose limit o radii sel out) : out = .error .zeroDivision := by
  rcases C113_kernel_partial c c' hc hc' hh xyz masses box objs minPtcs hmin .com hs hr200 choose hch
    limit o ho radii hradii hpos sel hsel out hrun with ⟨-, h⟩ | ⟨h, -⟩ | ⟨res, -, -, hrows⟩
  · cases h
  · exact h
  · obtain ⟨k, hk⟩ := List.mem_iff_getElem?.1 hz
    obtain ⟨row, -, -, sub, -, -, hsub, hne, -⟩ := hrows k z obj hk hobj hnc
    rw [hsub rfl] at hne
    obtain ⟨p, hp, h0⟩ := hp
    exact absurd h0 (hne p hp)

/-- C113 is false for objects with a particle exactly at the centre: three equal particles in a row, the
middle one at the centre of mass.  In all unit systems the call raises ZeroDivisionError. -/
theorem C113_particle_at_centre_refuted (c : Cfg ℝ) (hc : c.Pos) (limit : Nat) :
    Sensible [![4, 5, 5], ![5, 5, 5], ![6, 5, (5 : ℝ)]] [1, 1, 1] 10 [([0, 1, 2], 5)] ∧
    ∃ o, construct c ⟨[![4, 5, 5], ![5, 5, 5], ![6, 5, 5]], [1, 1, 1], .nested [[0, 1, 2]], .array [5],
      10, 1, .com⟩ = .ok o ∧
    (∃ out, EstDensProfsKernel c (fun _ => [0, 1, 2]) limit o [1] [0] out) ∧
    ∀ out, EstDensProfsKernel c (fun _ => [0, 1, 2]) limit o [1] [0] out →
      out = .error .zeroDivision := by
  have hs : Sensible [![4, 5, 5], ![5, 5, 5], ![6, 5, (5 : ℝ)]] [1, 1, 1] 10 [([0, 1, 2], 5)] := by
    refine ⟨rfl, by norm_num, ?_, ?_, by simp, ?_⟩
    · intro x hx a
      simp only [List.mem_cons, List.not_mem_nil, or_false] at hx
      rcases hx with rfl | rfl | rfl <;> fin_cases a <;> norm_num
    · intro m hm
      simp only [List.mem_cons, List.not_mem_nil, or_false] at hm
      rcases hm with rfl | rfl | rfl <;> norm_num
    · intro o ho i hi
      simp only [List.mem_cons, List.not_mem_nil, or_false] at ho
      subst ho
      simp only [List.mem_cons, List.not_mem_nil, or_false] at hi
      rcases hi with rfl | rfl | rfl <;> simp
  have hres : resolved 1 [([0, 1, 2], (5 : ℝ))] = [([0, 1, 2], 5)] := by simp [resolved]
  have hsel : GoodSelection [0] (resolved 1 [([0, 1, 2], (5 : ℝ))]).length := by
    rw [hres]; exact ⟨by simp, by simp, by simp⟩
  obtain ⟨o, ho⟩ : ∃ o, construct c ⟨[![4, 5, 5], ![5, 5, 5], ![6, 5, 5]], [1, 1, 1],
      .nested ([([0, 1, 2], (5 : ℝ))].map Prod.fst), .array ([([0, 1, 2], (5 : ℝ))].map Prod.snd),
      10, 1, .com⟩ = .ok o := ⟨_, construct_eq c _ _ _ _ _ _ rfl (by simp)⟩
  have hparts : particlesOf [![4, 5, 5], ![5, 5, 5], ![6, 5, (5 : ℝ)]] [1, 1, 1] [0, 1, 2] =
      [⟨![4, 5, 5], 1⟩, ⟨![5, 5, 5], 1⟩, ⟨![6, 5, 5], 1⟩] := by
    simp [particlesOf]
  refine ⟨hs, o, ho, C113_outcome_exists c c _ _ _ _ 1 le_rfl .com hs _ limit o ho _ _ hsel, ?_⟩
  intro out hrun
  -- the reference particles are given for three particles only; for other numbers they do not matter
  refine C113_particle_at_centre c c hc hc rfl _ _ _ _ 1 le_rfl hs (by simp) _
    (fun n hn => ⟨0, by simp, hn⟩) limit o ho [1] (by simp) (by simp) [0] hsel 0 (by simp)
    ([0, 1, 2], 5) (by rw [hres]; rfl) ?_ ?_ out hrun
  · rw [hparts]
    intro p hp q hq a
    simp only [List.mem_cons, List.not_mem_nil, or_false] at hp hq
    rcases hp with rfl | rfl | rfl <;> rcases hq with rfl | rfl | rfl <;> fin_cases a <;>
      norm_num [abs_le]
  · rw [hparts]
    refine ⟨⟨![5, 5, 5], 1⟩, by simp, ?_⟩
    funext a
    fin_cases a <;> norm_num [weightedMean, totalMass]

/-- The hypotheses of C113 are met by two particles; their profile is computed. -/
example (c : Cfg ℝ) (hc : c.Pos) (limit : Nat) : ∃ o, construct c ⟨[![4, 5, 5], ![6, 5, 5]], [1, 1],
      .nested [[0, 1]], .array [5], 10, 1, .com⟩ = .ok o ∧
    ∃ dens, EstDensProfsKernel c (fun _ => [0, 1]) limit o [1 / 2] [0] (.ok [[dens]]) ∧
      dens * (c.outM / c.outL ^ 3) = smoothedDensity 5 (weightedMean [⟨![4, 5, 5], 1⟩, ⟨![6, 5, 5], 1⟩])
        [⟨![4, 5, 5], 1⟩, ⟨![6, 5, 5], 1⟩] (1 / 2 * 5) * (c.inM / c.inL ^ 3) := by
  have hs : Sensible [![4, 5, 5], ![6, 5, (5 : ℝ)]] [1, 1] 10 [([0, 1], 5)] := by
    refine ⟨rfl, by norm_num, ?_, ?_, by simp, ?_⟩
    · intro x hx a
      simp only [List.mem_cons, List.not_mem_nil, or_false] at hx
      rcases hx with rfl | rfl <;> fin_cases a <;> norm_num
    · intro m hm
      simp only [List.mem_cons, List.not_mem_nil, or_false] at hm
      rcases hm with rfl | rfl <;> norm_num
    · intro o ho i hi
      simp only [List.mem_cons, List.not_mem_nil, or_false] at ho
      subst ho
      simp only [List.mem_cons, List.not_mem_nil, or_false] at hi
      rcases hi with rfl | rfl <;> simp
  have hres : resolved 1 [([0, 1], (5 : ℝ))] = [([0, 1], 5)] := by simp [resolved]
  have hsel : GoodSelection [0] (resolved 1 [([0, 1], (5 : ℝ))]).length := by
    rw [hres]; exact ⟨by simp, by simp, by simp⟩
  obtain ⟨o, ho⟩ : ∃ o, construct c ⟨[![4, 5, 5], ![6, 5, 5]], [1, 1],
      .nested ([([0, 1], (5 : ℝ))].map Prod.fst), .array ([([0, 1], (5 : ℝ))].map Prod.snd),
      10, 1, .com⟩ = .ok o := ⟨_, construct_eq c _ _ _ _ _ _ rfl (by simp)⟩
  have hparts : particlesOf [![4, 5, 5], ![6, 5, (5 : ℝ)]] [1, 1] [0, 1] =
      [⟨![4, 5, 5], 1⟩, ⟨![6, 5, 5], 1⟩] := by
    simp [particlesOf]
  have hnc : NotCrossing 10 (particlesOf [![4, 5, 5], ![6, 5, (5 : ℝ)]] [1, 1] [0, 1]) := by
    rw [hparts]
    intro p hp q hq a
    simp only [List.mem_cons, List.not_mem_nil, or_false] at hp hq
    rcases hp with rfl | rfl <;> rcases hq with rfl | rfl <;> fin_cases a <;> norm_num [abs_le]
  refine ⟨o, ho, ?_⟩
  obtain ⟨out, hrun⟩ := C113_outcome_exists c c _ _ _ _ 1 le_rfl .com hs (fun _ => [0, 1]) limit o ho
    [1 / 2] [0] hsel
  rcases C113_kernel_partial c c hc hc rfl _ _ _ _ 1 le_rfl .com hs (by simp) (fun _ => [0, 1])
    (fun n hn => ⟨0, by simp, hn⟩) limit o ho [1 / 2] (by simp) (by simp) [0] hsel out hrun with
    ⟨-, h⟩ | ⟨-, z, hz, obj, hobj, h⟩ | ⟨res, rfl, hlen, hrows⟩
  · cases h
  · simp only [List.mem_singleton] at hz
    subst hz
    rw [hres] at hobj
    obtain rfl : ([0, 1], 5) = obj := by simpa using hobj
    obtain ⟨sub, -, -, hsub, p, hp, h0⟩ := h hnc
    rw [hsub rfl, hparts] at h0
    rw [hparts] at hp
    have h0 := congrFun h0 0
    simp only [List.mem_cons, List.not_mem_nil, or_false] at hp
    rcases hp with rfl | rfl <;> norm_num [weightedMean, totalMass] at h0
  · obtain ⟨row, h1, h2, sub, -, -, hsub, -, hd, -⟩ := hrows 0 0 ([0, 1], 5) rfl (by rw [hres]; rfl) hnc
    obtain ⟨dens, rfl⟩ := List.length_eq_one_iff.1 h2
    obtain ⟨r, rfl⟩ := List.length_eq_one_iff.1 hlen
    obtain rfl : r = [dens] := by simpa using h1
    refine ⟨dens, hrun, ?_⟩
    have := hd 0 dens (1 / 2) rfl rfl
    rw [hsub rfl, hparts] at this
    exact this

end Verif.Api
