import Verif.Fits.Structured
import Verif.Stats.HistProps

/-!
# Curves drawn by `plotDensProfs` (C110)

`_plotDensProfsBase` (`cosmic_profiles/common/cosmic_base_class.pyx:1083-1128`) and `drawDensProfs`
(`cosmic_profiles/dens_profs/dens_profs_tools.py:82-213`).
-/

namespace Verif.Fits

/-! ## Model -/

/-- `np.median(z) if z != [] else np.nan`: NaN as soon as one value is NaN. -/
noncomputable def npMedian (z : List (Option ℝ)) : Option ℝ :=
  if none ∈ z then none else Stats.median (z.filterMap id)

/-- `list(dens_profs[:,i])`. -/
def column (profs : List (List (Option ℝ))) (i : Nat) : List (Option ℝ) := profs.map fun prof => (prof[i]?).join

/-- `prof_median`, dens_profs_tools.py:141-142, 151-152, 191-192, 198-199. -/
noncomputable def medianProfile (n : Nat) (profs : List (List (Option ℝ))) : List (Option ℝ) :=
  (List.range n).map fun i => npMedian (column profs i)

/-- `dens_current_over_target`, dens_profs_tools.py:160-165. -/
noncomputable def plotFactor (c : Units.Cfg ℝ) : ℝ :=
  (1989 * 10 ^ 40 / c.h / 10 ^ 10) / (3085678 * 10 ^ 18 / c.h) ^ 3 / (c.outM / c.outL ^ 3)

/-- A panel: which of the selected objects enter, the blue curve and the red curve (values at
the radii `ROverR200` and `ROverR200_fit`; `none` = NaN, not drawn). -/
structure Panel where
  objects : List Nat
  median : List (Option ℝ)
  fit : List (Option ℝ)

/-- `prof_models[...](r, best_fit_dict)` with the density parameter in output units,
dens_profs_tools.py:154, 177-181, 200-206. -/
noncomputable def fitValue (p : Profile) (factor : ℝ) (row : List (Option ℝ)) (r : ℝ) : Option ℝ :=
  (row.mapM id).map fun pars => density p (pars.modify 0 (· * factor)) r

/-- One figure, dens_profs_tools.py:139-187 (all objects) and 189-212 (objects of one mass bin).  Profiles are
in the units of the fit, radii in Mpc/h.  Simplification: for no object at all, where numpy averages an
empty array, nothing is drawn.  Error bands are in `Stats.quantileError`. -/
noncomputable def drawPanel (opt : Optimiser) (c : Units.Cfg ℝ) (m : Method) (r200s rOverR200 rOverR200Fit : List ℝ)
    (profs profsFit : List (List (Option ℝ))) (objects : List Nat) : Panel where
  objects := objects
  median := (medianProfile rOverR200.length (objects.filterMap fun k => profs[k]?)).map
    (Option.map (· * plotFactor c))
  fit := match average (objects.filterMap fun k => r200s[k]?) with
    | none => rOverR200Fit.map fun _ => none
    | some r200 =>
      let row := fitDensProf opt rOverR200Fit m
        (medianProfile rOverR200Fit.length (objects.filterMap fun k => profsFit[k]?)) r200
      rOverR200Fit.map fun x => fitValue m.profile (plotFactor c) row (x * r200)

/-- `plotDensProfs` on process 0: first all objects, then one panel per mass bin.  `r200s` and `masses` are
those of the selected objects, `edges` is `max_min_m` of `M_split`; profiles in output units. -/
noncomputable def plotDensProfs (opt : Optimiser) (c : Units.Cfg ℝ) (m : Method)
    (r200s masses edges rOverR200 rOverR200Fit : List ℝ) (profs profsFit : List (List (Option ℝ))) : List Panel :=
  let panel := drawPanel opt c m r200s rOverR200 rOverR200Fit (profs.map (toFitUnits c))
    (profsFit.map (toFitUnits c))
  panel (List.range r200s.length) :: (List.range (edges.length - 1)).map fun g =>
    panel ((List.range r200s.length).filter fun k =>
      open Classical in decide (∃ x, masses[k]? = some x ∧ Stats.passes edges g x))

/-! ## Specification -/

/-- The densities of the given objects at radius number `i`, as handed over by the user. -/
def densitiesAt (profs : List (List (Option ℝ))) (objects : List Nat) (i : Nat) : List (Option ℝ) :=
  objects.map fun k => ((profs[k]?).bind fun prof => prof[i]?).join

/-! ## Lemmas -/

theorem median_scale (z : List ℝ) (a : ℝ) (ha : 0 < a) :
    Stats.median (z.map (· * a)) = (Stats.median z).map (· * a) := by
  unfold Stats.median
  by_cases hz : z = []
  · simp [hz]
  · rw [if_neg hz, if_neg (by simpa using hz)]
    have hs : (z.map (· * a)).mergeSort (fun a b => decide (a ≤ b)) =
        (z.mergeSort (fun a b => decide (a ≤ b))).map (· * a) := by
      symm
      apply List.map_mergeSort
      intro x _ y _
      simp [mul_le_mul_iff_left₀ ha]
    rw [hs]
    simp only [List.length_map, List.getElem?_map]
    split
    · rfl
    · cases (z.mergeSort fun a b => decide (a ≤ b))[(z.mergeSort fun a b => decide (a ≤ b)).length / 2 - 1]? <;>
        cases (z.mergeSort fun a b => decide (a ≤ b))[(z.mergeSort fun a b => decide (a ≤ b)).length / 2]? <;>
        simp
      ring

theorem npMedian_scale (z : List (Option ℝ)) (a : ℝ) (ha : 0 < a) :
    npMedian (z.map (Option.map (· * a))) = (npMedian z).map (· * a) := by
  unfold npMedian
  have h1 : none ∈ z.map (Option.map (· * a)) ↔ none ∈ z := by simp
  by_cases h : none ∈ z
  · rw [if_pos h, if_pos (h1.2 h)]; rfl
  · rw [if_neg h, if_neg (fun hn => h (h1.1 hn)), ← median_scale _ _ ha]
    congr 1
    rw [List.filterMap_map, List.map_filterMap]
    rfl

theorem plotFactor_eq (c : Units.Cfg ℝ) (hh : 0 < c.h) (hL : 0 < c.outL) (hM : 0 < c.outM) :
    plotFactor c = densityRatio c := by
  unfold plotFactor densityRatio lengthRatio
  field_simp

/-- Density in the units of the fit. -/
theorem toFitUnits_eq (c : Units.Cfg ℝ) (hh : 0 < c.h) (hL : 0 < c.outL) (hM : 0 < c.outM)
    (prof : List (Option ℝ)) :
    toFitUnits c prof = prof.map (Option.map (· * (densityRatio c)⁻¹)) := by
  unfold toFitUnits
  congr 1
  funext d
  congr 1
  funext d
  have hu : (fitUnits c).2 = 1989 * 10 ^ 30 / c.h := by unfold fitUnits; ring
  have hu1 : (fitUnits c).1 = 3085678 * 10 ^ 18 / c.h := rfl
  unfold densityRatio lengthRatio
  rw [hu, hu1, show (-3 : Int) = -((3 : Nat) : Int) by rfl, zpow_neg, zpow_natCast]
  field_simp

theorem column_units (c : Units.Cfg ℝ) (hh : 0 < c.h) (hL : 0 < c.outL) (hM : 0 < c.outM)
    (profs : List (List (Option ℝ))) (objects : List Nat) (ho : ∀ k ∈ objects, k < profs.length) (i : Nat) :
    column (objects.filterMap fun k => (profs.map (toFitUnits c))[k]?) i =
      (densitiesAt profs objects i).map (Option.map (· * (densityRatio c)⁻¹)) := by
  unfold column densitiesAt
  induction objects with
  | nil => rfl
  | cons k ks ih =>
    have hk := ho k List.mem_cons_self
    have ih := ih fun j hj => ho j (List.mem_cons_of_mem _ hj)
    rw [List.filterMap_cons]
    simp only [List.getElem?_map, List.getElem?_eq_getElem hk, Option.map_some, List.map_cons, Option.bind_some]
    rw [← ih]
    simp only [List.getElem?_map]
    congr 1
    rw [toFitUnits_eq c hh hL hM, List.getElem?_map]
    cases profs[k][i]? <;> rfl

theorem medianProfile_units (c : Units.Cfg ℝ) (hh : 0 < c.h) (hL : 0 < c.outL) (hM : 0 < c.outM) (n : Nat)
    (profs : List (List (Option ℝ))) (objects : List Nat) (ho : ∀ k ∈ objects, k < profs.length) :
    medianProfile n (objects.filterMap fun k => (profs.map (toFitUnits c))[k]?) =
      (List.range n).map fun i => (npMedian (densitiesAt profs objects i)).map (· * (densityRatio c)⁻¹) := by
  unfold medianProfile
  apply List.map_congr_left
  intro i _
  rw [column_units c hh hL hM _ _ ho, npMedian_scale _ _ (inv_pos.2 (ratios_pos c hh hL hM).2)]

theorem fitValue_some (p : Profile) (factor : ℝ) (pars : List ℝ) (r : ℝ) :
    fitValue p factor (pars.map some) r = some (density p (pars.modify 0 (· * factor)) r) := by
  unfold fitValue
  have : (pars.map some).mapM id = some pars := by
    induction pars with
    | nil => rfl
    | cons x l ih => rw [List.map_cons, List.mapM_cons, ih]; rfl
  rw [this]; rfl

theorem fitValue_none (p : Profile) (factor : ℝ) (r : ℝ) :
    fitValue p factor (p.params.map fun _ => none) r = none := by
  cases p <;> rfl

theorem panel_objects (opt : Optimiser) (c : Units.Cfg ℝ) (m : Method)
    (r200s masses edges rOverR200 rOverR200Fit : List ℝ) (profs profsFit : List (List (Option ℝ))) (pn : Panel)
    (h : pn ∈ plotDensProfs opt c m r200s masses edges rOverR200 rOverR200Fit profs profsFit) :
    (∀ k ∈ pn.objects, k < r200s.length) ∧
    pn = drawPanel opt c m r200s rOverR200 rOverR200Fit (profs.map (toFitUnits c))
      (profsFit.map (toFitUnits c)) pn.objects := by
  unfold plotDensProfs at h
  rcases List.mem_cons.1 h with rfl | h
  · exact ⟨fun k hk => List.mem_range.1 hk, rfl⟩
  · obtain ⟨g, -, rfl⟩ := List.mem_map.1 h
    exact ⟨fun k hk => List.mem_range.1 (List.mem_of_mem_filter hk), rfl⟩

/-- Change of the unit of density. -/
theorem points_density (rOverR200 : List ℝ) (r200 : ℝ) (f : Nat → Option ℝ) (a : ℝ) :
    points rOverR200 r200 ((List.range rOverR200.length).map fun i => (f i).map (· * a)) =
      (points rOverR200 r200 ((List.range rOverR200.length).map f)).map fun rd => (rd.1, rd.2 * a) := by
  unfold points
  have : ((List.range rOverR200.length).map fun i => (f i).map (· * a)) =
      ((List.range rOverR200.length).map f).map (Option.map (· * a)) := by simp
  rw [this, List.zip_map_right, List.filterMap_map, List.map_filterMap]
  congr 1
  funext rp
  obtain ⟨r, d⟩ := rp
  cases d <;> rfl

theorem logDistance_density (m : Method) (hfix : ∀ v, m.fixed "r_s" = some v → 0 < v) (least : ℝ)
    (hleast : 0 < least) (data : List (ℝ × ℝ)) (hd : ∀ rd ∈ data, 0 < rd.1 ∧ 0 < rd.2) (a : ℝ) (ha : 0 < a)
    (pars : List ℝ) (h : Admissible m least pars) :
    logDistance m.profile (data.map fun rd => (rd.1, rd.2 * a)) (pars.modify 0 (· * a)) =
      logDistance m.profile data pars := by
  cases pars with
  | nil => exact h.elim
  | cons rho rest =>
    have := logDistance_congr m.profile m.profile data (fun rd => (rd.1, rd.2 * a)) id (rho * a :: rest)
      (rho :: rest) ?_
    · simpa [List.modify] using this
    · intro rd hrd
      have hpos := density_pos m hfix rho rest (lt_of_lt_of_le hleast h.1) h.2 rd.1 (hd rd hrd).1
      simp only [id]
      rw [density_scale, Real.log_mul ha.ne' hpos.ne', Real.log_mul (hd rd hrd).2.ne' ha.ne']
      ring

/-! ## C110 -/

/-- C110.  The first figure is drawn for all selected objects, the others for the objects with a mass strictly
between two consecutive edges. -/
theorem C110_panels (opt : Optimiser) (c : Units.Cfg ℝ) (m : Method)
    (r200s masses edges rOverR200 rOverR200Fit : List ℝ) (profs profsFit : List (List (Option ℝ)))
    (hmass : masses.length = r200s.length) :
    let panels := plotDensProfs opt c m r200s masses edges rOverR200 rOverR200Fit profs profsFit
    panels.length = 1 + (edges.length - 1) ∧
    (panels[0]?).map Panel.objects = some (List.range r200s.length) ∧
    ∀ (g : Nat) (lo hi : ℝ), edges[g]? = some lo → edges[g + 1]? = some hi →
      ∃ pn, panels[g + 1]? = some pn ∧ pn.objects.Nodup ∧
        ∀ k, k ∈ pn.objects ↔ ∃ x, masses[k]? = some x ∧ lo < x ∧ x < hi := by
  refine ⟨by simp [plotDensProfs]; omega, by simp [plotDensProfs, drawPanel], ?_⟩
  intro g lo hi hlo hhi
  have hg : g < edges.length - 1 := by
    have := (List.getElem?_eq_some_iff.1 hhi).1; omega
  refine ⟨_, by
    unfold plotDensProfs
    rw [List.getElem?_cons_succ, List.getElem?_map, List.getElem?_range hg]
    rfl, ?_, ?_⟩
  · exact List.nodup_range.filter _
  · intro k
    simp only [drawPanel, List.mem_filter, List.mem_range, decide_eq_true_eq]
    constructor
    · rintro ⟨-, x, hx, lo', hi', e1, e2, h1, h2⟩
      rw [hlo] at e1; rw [hhi] at e2
      obtain rfl := Option.some.inj e1
      obtain rfl := Option.some.inj e2
      exact ⟨x, hx, h1, h2⟩
    · rintro ⟨x, hx, h1, h2⟩
      exact ⟨hmass ▸ (List.getElem?_eq_some_iff.1 hx).1, x, hx, lo, hi, hlo, hhi, h1, h2⟩

/-- C110, the part which holds: where all objects of a figure have a density, the value drawn is the median of
the densities handed over, in whatever output units. -/
theorem C110_median_partial (opt : Optimiser) (c : Units.Cfg ℝ) (hh : 0 < c.h) (hL : 0 < c.outL) (hM : 0 < c.outM)
    (m : Method) (r200s masses edges rOverR200 rOverR200Fit : List ℝ) (profs profsFit : List (List (Option ℝ)))
    (hlen : profs.length = r200s.length) (pn : Panel)
    (h : pn ∈ plotDensProfs opt c m r200s masses edges rOverR200 rOverR200Fit profs profsFit) :
    pn.median.length = rOverR200.length ∧
    ∀ (i : Nat) (z : List ℝ), i < rOverR200.length → densitiesAt profs pn.objects i = z.map some →
      pn.median[i]? = some (Stats.median z) := by
  obtain ⟨ho, e⟩ := panel_objects _ _ _ _ _ _ _ _ _ _ _ h
  have ho' : ∀ k ∈ pn.objects, k < profs.length := fun k hk => hlen ▸ ho k hk
  have hd := (ratios_pos c hh hL hM).2
  have hmed : pn.median = (List.range rOverR200.length).map fun i => npMedian (densitiesAt profs pn.objects i) := by
    rw [e]
    simp only [drawPanel]
    rw [medianProfile_units c hh hL hM _ _ _ ho', List.map_map]
    apply List.map_congr_left
    intro i _
    simp only [Function.comp, Option.map_map, plotFactor_eq c hh hL hM]
    cases npMedian (densitiesAt profs pn.objects i) with
    | none => rfl
    | some x => simp [hd.ne']
  refine ⟨by rw [hmed]; simp, fun i z hi hz => ?_⟩
  rw [hmed, List.getElem?_map, List.getElem?_range hi, Option.map_some, hz]
  unfold npMedian
  rw [if_neg (by simp), List.filterMap_map]
  simp

/-- C110 is false where one of the objects has no density (NaN): nothing is drawn there, whatever the
densities of the others. -/
theorem C110_gap_refuted (opt : Optimiser) (c : Units.Cfg ℝ) (hh : 0 < c.h) (hL : 0 < c.outL) (hM : 0 < c.outM)
    (m : Method) (r200s masses edges rOverR200 rOverR200Fit : List ℝ) (profs profsFit : List (List (Option ℝ)))
    (hlen : profs.length = r200s.length) (k i : Nat) (prof : List (Option ℝ)) (hi : i < rOverR200.length)
    (hk : profs[k]? = some prof) (hnan : prof[i]? = some none) (pn : Panel)
    (h : pn ∈ plotDensProfs opt c m r200s masses edges rOverR200 rOverR200Fit profs profsFit)
    (hko : k ∈ pn.objects) : pn.median[i]? = some none := by
  obtain ⟨ho, e⟩ := panel_objects _ _ _ _ _ _ _ _ _ _ _ h
  have ho' : ∀ k ∈ pn.objects, k < profs.length := fun k hk => hlen ▸ ho k hk
  have hmem : none ∈ densitiesAt profs pn.objects i := by
    unfold densitiesAt
    rw [List.mem_map]
    exact ⟨k, hko, by rw [hk, Option.bind_some, hnan]; rfl⟩
  rw [e]
  simp only [drawPanel]
  rw [medianProfile_units c hh hL hM _ _ _ ho', List.getElem?_map, List.getElem?_map, List.getElem?_range hi]
  simp [npMedian, hmem]

/-- C110, the part which holds for the fits: with an optimiser that finds the minimum, the curve drawn is
that of admissible parameters which are closer to the medians drawn than any other admissible ones (radii in
Mpc/h from the average R200 of the objects, densities in output units); nothing is drawn if the
optimiser gives up. -/
theorem C110_fit_partial (opt : Optimiser) (hopt : Minimises opt) (c : Units.Cfg ℝ) (hh : 0 < c.h)
    (hL : 0 < c.outL) (hM : 0 < c.outM) (m : Method) (hfix : ∀ v, m.fixed "r_s" = some v → 0 < v)
    (r200s masses edges rOverR200 rOverR200Fit : List ℝ) (profs profsFit : List (List (Option ℝ)))
    (hlen : profsFit.length = r200s.length) (pn : Panel)
    (h : pn ∈ plotDensProfs opt c m r200s masses edges rOverR200 rOverR200Fit profs profsFit)
    (hne : pn.objects ≠ []) (r200 : ℝ)
    (hr200 : r200 = (pn.objects.map fun k => r200s.getD k 0).sum / pn.objects.length)
    (data : List (ℝ × ℝ)) (hdata : data = points rOverR200Fit r200
      ((List.range rOverR200Fit.length).map fun i => npMedian (densitiesAt profsFit pn.objects i)))
    (hdne : data ≠ []) (hpos : ∀ rd ∈ data, 0 < rd.1 ∧ 0 < rd.2) :
    pn.fit = (rOverR200Fit.map fun _ => none) ∨
    ∃ best, pn.fit = (rOverR200Fit.map fun x => some (density m.profile best (x * r200))) ∧
      Admissible m (meanDensity data / 10 ^ 7) best ∧
      ∀ y, Admissible m (meanDensity data / 10 ^ 7) y →
        logDistance m.profile data best ≤ logDistance m.profile data y := by
  obtain ⟨ho, e⟩ := panel_objects _ _ _ _ _ _ _ _ _ _ _ h
  have ho' : ∀ k ∈ pn.objects, k < profsFit.length := fun k hk => hlen ▸ ho k hk
  have hd := (ratios_pos c hh hL hM).2
  set a := densityRatio c with ha
  have havg : average (pn.objects.filterMap fun k => r200s[k]?) = some r200 := by
    have hmap : (pn.objects.filterMap fun k => r200s[k]?) = pn.objects.map fun k => r200s.getD k 0 := by
      clear e h hne hr200 hdata hdne ho'
      revert ho
      induction pn.objects with
      | nil => intro _; rfl
      | cons k ks ih =>
        intro ho
        have hk := ho k List.mem_cons_self
        rw [List.filterMap_cons, List.getElem?_eq_getElem hk, List.map_cons,
          ih fun j hj => ho j (List.mem_cons_of_mem _ hj)]
        simp [List.getD, hk]
    unfold average
    rw [hmap, if_neg (by simpa using hne), hr200, List.length_map]
  -- the data in the units of the fit
  set med := (List.range rOverR200Fit.length).map fun i =>
    (npMedian (densitiesAt profsFit pn.objects i)).map (· * a⁻¹) with hmed
  have hpts : points rOverR200Fit r200 med = data.map fun rd => (rd.1, rd.2 * a⁻¹) := by
    rw [hmed, hdata, points_density]
  have hback : data = (points rOverR200Fit r200 med).map fun rd => (rd.1, rd.2 * a) := by
    rw [hpts, List.map_map]
    have : (fun rd : ℝ × ℝ => (rd.1, rd.2 * a)) ∘ (fun rd => (rd.1, rd.2 * a⁻¹)) = id := by
      funext rd; simp [hd.ne']
    rw [this, List.map_id]
  have hfit : pn.fit = rOverR200Fit.map fun x =>
      fitValue m.profile a (fitDensProf opt rOverR200Fit m med r200) (x * r200) := by
    rw [e]
    simp only [drawPanel, havg]
    rw [medianProfile_units c hh hL hM _ _ _ ho', plotFactor_eq c hh hL hM]
  have hpne : points rOverR200Fit r200 med ≠ [] := by rw [hpts]; simpa using hdne
  have hppos : ∀ rd ∈ points rOverR200Fit r200 med, 0 < rd.1 ∧ 0 < rd.2 := by
    rw [hpts]
    intro rd hrd
    obtain ⟨rd', h', rfl⟩ := List.mem_map.1 hrd
    exact ⟨(hpos rd' h').1, mul_pos (hpos rd' h').2 (inv_pos.2 hd)⟩
  have hmean : meanDensity data = meanDensity (points rOverR200Fit r200 med) * a := by
    rw [hback]
    unfold meanDensity
    rw [List.map_map, List.length_map, show ((fun rd : ℝ × ℝ => rd.2) ∘ fun rd : ℝ × ℝ => (rd.1, rd.2 * a)) =
      fun rd : ℝ × ℝ => rd.2 * a from rfl, List.sum_map_mul_right]
    ring
  have hmpos := mean_pos _ hpne fun rd h => (hppos rd h).2
  rcases best_fit opt hopt m hfix rOverR200Fit r200 med hpne hppos with h0 | ⟨best, h1, h2, h3⟩
  · left
    rw [hfit, h0]
    simp only [fitValue_none]
  · right
    have hadm : ∀ y, Admissible m (meanDensity data / 10 ^ 7) y →
        Admissible m (meanDensity (points rOverR200Fit r200 med) / 10 ^ 7) (y.modify 0 (· * a⁻¹)) := by
      intro y hy
      cases y with
      | nil => exact hy.elim
      | cons rho rest =>
        refine ⟨?_, hy.2⟩
        have := hy.1
        rw [hmean] at this
        show _ ≤ rho * a⁻¹
        rw [← div_eq_mul_inv, le_div_iff₀ hd]
        linarith
    refine ⟨best.modify 0 (· * a), ?_, ?_, ?_⟩
    · rw [hfit, h1]
      simp only [fitValue_some]
    · cases best with
      | nil => exact h2.elim
      | cons rho rest =>
        refine ⟨?_, h2.2⟩
        rw [hmean]
        have := mul_le_mul_of_nonneg_right h2.1 hd.le
        show _ ≤ rho * a
        linarith
    · intro y hy
      have hl : 0 < meanDensity (points rOverR200Fit r200 med) / 10 ^ 7 := by positivity
      have hyy : (y.modify 0 (· * a⁻¹)).modify 0 (· * a) = y := by
        cases y with
        | nil => rfl
        | cons rho rest => simp [List.modify, hd.ne']
      have e1 := logDistance_density m hfix _ hl _ hppos a hd best h2
      have e2 := logDistance_density m hfix _ hl _ hppos a hd _ (hadm y hy)
      rw [← hback] at e1 e2
      rw [hyy] at e2
      rw [e1, e2]
      exact h3 _ (hadm y hy)

/-! ## Concrete cases -/

/-- C110: two objects at two radii in the units of `cfg1`, the median is that of the densities. -/
example (opt : Optimiser) : ∃ pn ∈ plotDensProfs opt cfg1 nfwMethod [1, 1] [5, 7] [5, 7] [1, 2] [1, 2]
      [[some 4, some 2], [some 6, none]] [[some 4, some 2], [some 6, none]],
    pn.median[0]? = some (Stats.median [4, 6]) ∧ pn.median[1]? = some none := by
  obtain ⟨-, h0, -⟩ := C110_panels opt cfg1 nfwMethod [1, 1] [5, 7] [5, 7] [1, 2] [1, 2]
    [[some 4, some 2], [some 6, none]] [[some 4, some 2], [some 6, none]] rfl
  obtain ⟨pn, hp, ho⟩ := Option.map_eq_some_iff.1 h0
  have hm := List.mem_of_getElem? hp
  have ho : pn.objects = [0, 1] := ho
  refine ⟨pn, hm, ?_, ?_⟩
  · exact (C110_median_partial opt cfg1 (by norm_num [cfg1]) (by norm_num [cfg1]) (by norm_num [cfg1]) _ _ _ _ _ _ _ _
      rfl pn hm).2 0 [4, 6] (by simp) (by rw [ho]; rfl)
  · exact C110_gap_refuted opt cfg1 (by norm_num [cfg1]) (by norm_num [cfg1]) (by norm_num [cfg1]) _ _ _ _ _ _ _ _
      rfl 1 1 [some 6, none] (by simp) rfl rfl pn hm (by rw [ho]; simp)

theorem npMedian_single (x : Option ℝ) : npMedian [x] = x := by
  cases x with
  | none => simp [npMedian]
  | some x => simp [npMedian, Stats.median]

/-- C110: the fit drawn for the NFW halo of the examples above. -/
example : ∃ pn ∈ plotDensProfs (oracle [96 / 13, 1]) cfg1 nfwMethod [1] [5] [5, 5] [1, 2, 3] [1, 2, 3]
      [exactProf] [exactProf],
    pn.fit = ([1, 2, 3] : List ℝ).map (fun _ => none) ∨ ∃ best,
      pn.fit = ([1, 2, 3] : List ℝ).map (fun x => some (density .nfw best (x * 1))) ∧
      logDistance .nfw [(1, 1 / 4), (3, 1 / 48)] best ≤ logDistance .nfw [(1, 1 / 4), (3, 1 / 48)] [1, 1] := by
  obtain ⟨-, h0, -⟩ := C110_panels (oracle [96 / 13, 1]) cfg1 nfwMethod [1] [5] [5, 5] [1, 2, 3] [1, 2, 3]
    [exactProf] [exactProf] rfl
  obtain ⟨pn, hp, ho⟩ := Option.map_eq_some_iff.1 h0
  have hm := List.mem_of_getElem? hp
  have ho : pn.objects = [0] := ho
  refine ⟨pn, hm, ?_⟩
  have hdata : [(1, 1 / 4), (3, 1 / 48)] = points [1, 2, 3] 1
      ((List.range ([1, 2, 3] : List ℝ).length).map fun i => npMedian (densitiesAt [exactProf] pn.objects i)) := by
    rw [ho, ← exact_points]
    congr 1
    simp [List.range_succ, densitiesAt, npMedian_single, exactProf]
  rcases C110_fit_partial (oracle [96 / 13, 1]) (oracle_minimises _) cfg1 (by norm_num [cfg1]) (by norm_num [cfg1])
    (by norm_num [cfg1]) nfwMethod (by simp [nfwMethod]) [1] [5] [5, 5] [1, 2, 3] [1, 2, 3] [exactProf] [exactProf]
    rfl pn hm (by rw [ho]; simp) 1 (by rw [ho]; simp) _ hdata (by simp) (by
      intro rd hrd
      simp only [List.mem_cons, List.not_mem_nil, or_false] at hrd
      rcases hrd with rfl | rfl <;> norm_num) with h | ⟨best, h1, -, h3⟩
  · exact .inl h
  · refine .inr ⟨best, h1, h3 [1, 1] ⟨?_, ?_⟩⟩
    · rw [exact_mean]; norm_num
    · simp [InBox, nfwMethod, Profile.params, bound]; norm_num

end Verif.Fits
