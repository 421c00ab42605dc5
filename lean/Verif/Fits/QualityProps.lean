import Verif.Fits.FitProps

/-!
# What a fit minimises (C87, C88) and examples for the fits
-/

namespace Verif.Fits

/-! ## Specification -/

/-- Sum of squared differences of the logarithms of measured and model density. -/
noncomputable def logDistance (p : Profile) (data : List (ℝ × ℝ)) (pars : List ℝ) : ℝ :=
  (data.map fun rd => (Real.log rd.2 - Real.log (density p pars rd.1)) ^ 2).sum

/-- An optimiser which finds a global minimum within the bounds whenever it returns. -/
def Minimises (opt : Optimiser) : Prop :=
  ∀ f start bounds x, opt f start bounds = some x →
    InBox bounds x ∧ ∀ y, InBox bounds y → f x ≤ f y

/-- Admissible parameters: density at least `least`, other parameters within their bounds. -/
def Admissible (m : Method) (least : ℝ) : List ℝ → Prop
  | [] => False
  | rho :: rest => least ≤ rho ∧ InBox (m.profile.params.tail.map (bound m)) rest

/-- Data points of a profile: the radii where the density is a number. -/
noncomputable def points (rOverR200 : List ℝ) (r200 : ℝ) (prof : List (Option ℝ)) : List (ℝ × ℝ) :=
  (rOverR200.zip prof).filterMap fun rp => rp.2.map fun d => (rp.1 * r200, d)

/-- Mean of the measured densities. -/
noncomputable def meanDensity (data : List (ℝ × ℝ)) : ℝ := (data.map fun rd => rd.2).sum / data.length

/-- Parameters in other units: density times `a`, scale radius (last parameter) times `b`. -/
noncomputable def inUnits (a b : ℝ) (p : Profile) (pars : List ℝ) : List ℝ :=
  (pars.modify 0 (· * a)).modify (p.params.length - 1) (· * b)

/-! ## Lemmas -/

theorem density_scale (p : Profile) (a rho : ℝ) (rest : List ℝ) (r : ℝ) :
    density p (rho * a :: rest) r = a * density p (rho :: rest) r := by
  cases p <;> unfold density <;> split <;> try simp_all
  · rename_i h; obtain ⟨⟨rfl, rfl⟩, rfl⟩ := h; simp [Stats.einasto]; ring
  · rename_i h; obtain ⟨⟨rfl, rfl⟩, rfl⟩ := h; simp [Stats.alphaBetaGamma]; ring
  · rename_i h; obtain ⟨⟨rfl, rfl⟩, rfl⟩ := h; simp [Stats.nfw]; ring
  · rename_i h; obtain ⟨⟨rfl, rfl⟩, rfl⟩ := h; simp [Stats.hernquist]; ring

theorem inBox_cons (m : Method) (rho : ℝ) (rest : List ℝ) :
    InBox (m.profile.params.map (bound m)) (rho :: rest) ↔
      1 / 10 ^ 7 ≤ rho ∧ InBox (m.profile.params.tail.map (bound m)) rest := by
  have hb : bound m "rho_s" = (1 / 10 ^ 7, none) := by simp [bound]
  unfold InBox
  cases m.profile <;> simp [Profile.params, hb]

theorem rs_pos (m : Method) (hfix : ∀ v, m.fixed "r_s" = some v → 0 < v) : 0 < (bound m "r_s").1 := by
  unfold bound
  rw [if_neg (by decide)]
  cases h : m.fixed "r_s" with
  | some v => exact hfix v h
  | none =>
    simp only
    split <;> positivity

theorem density_pos (m : Method) (hfix : ∀ v, m.fixed "r_s" = some v → 0 < v) (rho : ℝ) (rest : List ℝ)
    (hrho : 0 < rho) (h : InBox (m.profile.params.tail.map (bound m)) rest) (r : ℝ) (hr : 0 < r) :
    0 < density m.profile (rho :: rest) r := by
  have hrs := rs_pos m hfix
  unfold InBox at h
  cases hp : m.profile <;> rw [hp] at h <;>
    simp only [Profile.params, List.tail_cons, List.map_cons, List.map_nil, List.forall₂_cons_left_iff,
      List.forall₂_nil_left_iff] at h
  · obtain ⟨alpha, _, -, ⟨rs, _, ⟨h1, -⟩, rfl, rfl⟩, rfl⟩ := h
    have : 0 < rs := lt_of_lt_of_le hrs h1
    simp only [density, Stats.einasto]
    positivity
  · obtain ⟨alpha, _, -, ⟨beta, _, -, ⟨gamma, _, -, ⟨rs, _, ⟨h1, -⟩, rfl, rfl⟩, rfl⟩, rfl⟩, rfl⟩ := h
    have : 0 < rs := lt_of_lt_of_le hrs h1
    simp only [density, Stats.alphaBetaGamma]
    positivity
  · obtain ⟨rs, _, ⟨h1, -⟩, rfl, rfl⟩ := h
    have : 0 < rs := lt_of_lt_of_le hrs h1
    simp only [density, Stats.nfw]
    positivity
  · obtain ⟨rs, _, ⟨h1, -⟩, rfl, rfl⟩ := h
    have : 0 < rs := lt_of_lt_of_le hrs h1
    simp only [density, Stats.hernquist]
    positivity

theorem mean_pos (data : List (ℝ × ℝ)) (hne : data ≠ []) (hd : ∀ rd ∈ data, 0 < rd.2) :
    0 < meanDensity data := by
  unfold meanDensity
  apply div_pos
  · apply List.sum_pos
    · intro x hx
      obtain ⟨rd, hrd, rfl⟩ := List.mem_map.1 hx
      exact hd rd hrd
    · simpa using hne
  · exact_mod_cast List.length_pos_iff.2 hne

theorem logDistance_congr (p p' : Profile) {ι : Type} (l : List ι) (f g : ι → ℝ × ℝ) (x y : List ℝ)
    (h : ∀ i ∈ l, Real.log (f i).2 - Real.log (density p x (f i).1) =
      Real.log (g i).2 - Real.log (density p' y (g i).1)) :
    logDistance p (l.map f) x = logDistance p' (l.map g) y := by
  unfold logDistance
  rw [List.map_map, List.map_map]
  congr 1
  apply List.map_congr_left
  intro i hi
  simp only [Function.comp]
  rw [h i hi]

theorem residual_eq (p : Profile) (data : List (ℝ × ℝ)) (hd : ∀ rd ∈ data, 0 < rd.2) (x : List ℝ) :
    residual p data x = ((logDistance p data x / data.length : ℝ) : WithTop ℝ) := by
  unfold residual logDistance
  rw [if_pos hd]
  congr 1
  simp only [div_eq_mul_inv]
  rw [List.sum_map_mul_right]

theorem residual_scaled (m : Method) (hfix : ∀ v, m.fixed "r_s" = some v → 0 < v) (data : List (ℝ × ℝ))
    (hd : ∀ rd ∈ data, 0 < rd.1 ∧ 0 < rd.2) (a : ℝ) (ha : 0 < a) (rho : ℝ) (rest : List ℝ)
    (hrho : 0 < rho) (h : InBox (m.profile.params.tail.map (bound m)) rest) :
    residual m.profile (data.map fun rd => (rd.1, rd.2 / a)) (rho :: rest) =
      ((logDistance m.profile data (rho * a :: rest) / data.length : ℝ) : WithTop ℝ) := by
  rw [residual_eq]
  · rw [List.length_map]
    congr 2
    have := logDistance_congr m.profile m.profile data (fun rd => (rd.1, rd.2 / a)) id (rho :: rest)
      (rho * a :: rest) ?_
    · simpa using this
    · intro rd hrd
      have hpos := density_pos m hfix rho rest hrho h rd.1 (hd rd hrd).1
      simp only [id]
      rw [density_scale, Real.log_mul ha.ne' hpos.ne', Real.log_div (hd rd hrd).2.ne' ha.ne']
      ring
  · intro rd hrd
    obtain ⟨rd', h', rfl⟩ := List.mem_map.1 hrd
    exact div_pos (hd rd' h').2 ha

/-- One object in the units of the fit. -/
theorem best_fit (opt : Optimiser) (hopt : Minimises opt) (m : Method)
    (hfix : ∀ v, m.fixed "r_s" = some v → 0 < v) (rOverR200 : List ℝ) (r200 : ℝ) (prof : List (Option ℝ))
    (hne : points rOverR200 r200 prof ≠ [])
    (hpos : ∀ rd ∈ points rOverR200 r200 prof, 0 < rd.1 ∧ 0 < rd.2) :
    fitDensProf opt rOverR200 m prof r200 = (m.profile.params.map fun _ => none) ∨
    ∃ best, fitDensProf opt rOverR200 m prof r200 = best.map some ∧
      Admissible m (meanDensity (points rOverR200 r200 prof) / 10 ^ 7) best ∧
      ∀ y, Admissible m (meanDensity (points rOverR200 r200 prof) / 10 ^ 7) y →
        logDistance m.profile (points rOverR200 r200 prof) best ≤
          logDistance m.profile (points rOverR200 r200 prof) y := by
  have hdata : fitData rOverR200 r200 prof = points rOverR200 r200 prof := rfl
  generalize points rOverR200 r200 prof = data at *
  have hm := mean_pos data hne fun rd h => (hpos rd h).2
  have havg : average (data.map fun rd => rd.2) = some (meanDensity data) := by
    unfold average meanDensity
    rw [if_neg (by simpa using hne), List.length_map]
  unfold fitDensProf
  simp only [hdata, havg, Option.getD_some]
  split
  · rename_i x hx
    right
    obtain ⟨hbox, hmin⟩ := hopt _ _ _ _ hx
    obtain ⟨rho, rest, rfl⟩ : ∃ rho rest, x = rho :: rest := by
      cases x with
      | nil =>
        have := hbox.length_eq
        cases hp : m.profile <;> rw [hp] at this <;> simp [Profile.params] at this
      | cons rho rest => exact ⟨rho, rest, rfl⟩
    rw [inBox_cons] at hbox
    have hrho : 0 < rho := lt_of_lt_of_le (by positivity) hbox.1
    have hn : (0 : ℝ) < data.length := by exact_mod_cast List.length_pos_iff.2 hne
    refine ⟨rho * meanDensity data :: rest, rfl, ⟨?_, hbox.2⟩, ?_⟩
    · calc meanDensity data / 10 ^ 7 = 1 / 10 ^ 7 * meanDensity data := by ring
        _ ≤ rho * meanDensity data := by gcongr; exact hbox.1
    · intro y hy
      cases y with
      | nil => exact hy.elim
      | cons rho' rest' =>
        have hrho' : 1 / 10 ^ 7 ≤ rho' / meanDensity data := by
          rw [le_div_iff₀ hm]; have := hy.1; linarith [this]
        have := hmin (rho' / meanDensity data :: rest') ((inBox_cons _ _ _).2 ⟨hrho', hy.2⟩)
        rw [residual_scaled m hfix data hpos _ hm rho rest hrho hbox.2,
          residual_scaled m hfix data hpos _ hm _ rest' (lt_of_lt_of_le (by positivity) hrho') hy.2,
          WithTop.coe_le_coe, div_le_div_iff_of_pos_right hn, div_mul_cancel₀ _ hm.ne'] at this
        exact this
  · exact Or.inl rfl

/-! ## Change of units -/

/-- Unit of length of the fit over output unit: Mpc/h. -/
noncomputable def lengthRatio (c : Units.Cfg ℝ) : ℝ := 3085678 * 10 ^ 18 / c.h / c.outL

/-- Unit of density of the fit over output unit: Msun h²/Mpc³. -/
noncomputable def densityRatio (c : Units.Cfg ℝ) : ℝ :=
  1989 * 10 ^ 30 / c.h / c.outM / lengthRatio c ^ 3

theorem ratios_pos (c : Units.Cfg ℝ) (hh : 0 < c.h) (hL : 0 < c.outL) (hM : 0 < c.outM) :
    0 < lengthRatio c ∧ 0 < densityRatio c := by
  unfold densityRatio lengthRatio
  constructor <;> positivity

theorem toOutUnits_some (c : Units.Cfg ℝ) (p : Profile) (best : List ℝ) :
    toOutUnits c p (best.map some) =
      (inUnits (densityRatio c) (lengthRatio c) p best).map some := by
  have hmod : ∀ (k : Nat) (f : ℝ → ℝ) (l : List ℝ), modifyCol k f (l.map some) = (l.modify k f).map some := by
    intro k f l
    unfold modifyCol
    apply List.ext_getElem?
    intro j
    simp only [List.getElem?_modify, List.getElem?_map]
    cases l[j]? <;> by_cases h : k = j <;> simp [h]
  have hcol : rsColumn p = p.params.length - 1 := by cases p <;> rfl
  unfold toOutUnits inUnits
  rw [hmod, hmod, hcol]
  have hden : (fun x : ℝ => x * ((fitUnits c).2 / c.outM) * ((fitUnits c).1 / c.outL) ^ (-3 : Int)) =
      fun x => x * densityRatio c := by
    funext x
    have hu : 1989 * 10 ^ 40 / c.h / 10 ^ 10 = 1989 * 10 ^ 30 / c.h := by ring
    unfold densityRatio fitUnits lengthRatio
    simp only [hu]
    rw [show (-3 : Int) = -((3 : Nat) : Int) by rfl, zpow_neg, zpow_natCast]
    ring
  rw [hden]
  rfl

theorem density_inUnits (m : Method) (least : ℝ) (pars : List ℝ) (h : Admissible m least pars) (a b r : ℝ)
    (hb : b ≠ 0) :
    density m.profile (inUnits a b m.profile pars) (r * b) = a * density m.profile pars r := by
  cases pars with
  | nil => exact h.elim
  | cons rho rest =>
    have h := h.2
    have hq : ∀ rs : ℝ, r * b / (rs * b) = r / rs := fun rs => mul_div_mul_right r rs hb
    unfold InBox at h
    cases hp : m.profile <;> rw [hp] at h <;>
      simp only [Profile.params, List.tail_cons, List.map_cons, List.map_nil, List.forall₂_cons_left_iff,
        List.forall₂_nil_left_iff] at h
    · obtain ⟨alpha, _, -, ⟨rs, _, -, rfl, rfl⟩, rfl⟩ := h
      simp [density, Stats.einasto, inUnits, Profile.params, List.modify, hq]; ring
    · obtain ⟨alpha, _, -, ⟨beta, _, -, ⟨gamma, _, -, ⟨rs, _, -, rfl, rfl⟩, rfl⟩, rfl⟩, rfl⟩ := h
      simp [density, Stats.alphaBetaGamma, inUnits, Profile.params, List.modify, hq]; ring
    · obtain ⟨rs, _, -, rfl, rfl⟩ := h
      simp [density, Stats.nfw, inUnits, Profile.params, List.modify, hq]; ring
    · obtain ⟨rs, _, -, rfl, rfl⟩ := h
      simp [density, Stats.hernquist, inUnits, Profile.params, List.modify, hq]; ring

theorem points_units (c : Units.Cfg ℝ) (hh : 0 < c.h) (hL : 0 < c.outL) (hM : 0 < c.outM)
    (rOverR200 : List ℝ) (r200 : ℝ) (prof : List (Option ℝ)) :
    points rOverR200 (r200 * lengthRatio c) prof = (points rOverR200 r200 (toFitUnits c prof)).map
      fun rd => (rd.1 * lengthRatio c, rd.2 * densityRatio c) := by
  have hd : ∀ d : ℝ, d * (c.outM / (fitUnits c).2) * (c.outL / (fitUnits c).1) ^ (-3 : Int) *
      densityRatio c = d := by
    intro d
    have hu : (fitUnits c).2 = 1989 * 10 ^ 30 / c.h := by unfold fitUnits; ring
    have hu1 : (fitUnits c).1 = 3085678 * 10 ^ 18 / c.h := rfl
    unfold densityRatio lengthRatio
    rw [hu, hu1, show (-3 : Int) = -((3 : Nat) : Int) by rfl, zpow_neg, zpow_natCast]
    field_simp
  unfold points toFitUnits
  rw [List.zip_map_right, List.filterMap_map, List.map_filterMap]
  congr 1
  funext rp
  rcases rp with ⟨r, _ | d⟩
  · rfl
  · simp only [Function.comp, Prod.map, id, Option.map_some, Option.some.injEq, Prod.mk.injEq, hd]
    exact ⟨by ring, trivial⟩

theorem logDistance_inUnits (m : Method) (hfix : ∀ v, m.fixed "r_s" = some v → 0 < v)
    (least : ℝ) (hleast : 0 < least) (pars : List ℝ)
    (h : Admissible m least pars) (a b : ℝ) (ha : 0 < a) (hb : 0 < b) (data : List (ℝ × ℝ))
    (hpos : ∀ rd ∈ data, 0 < rd.1 ∧ 0 < rd.2) :
    logDistance m.profile (data.map fun rd => (rd.1 * b, rd.2 * a)) (inUnits a b m.profile pars) =
      logDistance m.profile data pars := by
  have := logDistance_congr m.profile m.profile data (fun rd => (rd.1 * b, rd.2 * a)) id
    (inUnits a b m.profile pars) pars ?_
  · simpa using this
  · intro rd hrd
    have hp : 0 < density m.profile pars rd.1 := by
      cases pars with
      | nil => exact h.elim
      | cons rho rest =>
        exact density_pos m hfix rho rest (lt_of_lt_of_le hleast h.1) h.2 rd.1 (hpos rd hrd).1
    simp only [id]
    rw [density_inUnits m least pars h a b rd.1 hb.ne', Real.log_mul ha.ne' hp.ne',
      Real.log_mul (hpos rd hrd).2.ne' ha.ne']
    ring

/-! ## C87 -/

/-- C87. With a perfect optimiser, the parameters returned for an object (in output units) are at least as
close to its profile, in the sense of squared logarithmic differences, as any other parameters: for
all `y` within the bounds (in Mpc/h) whose density is at least 10⁻⁷ of the mean of the profile.
The densities of the profile must be positive where they are numbers. -/
theorem C87_best_fit_partial (opt : Optimiser) (hopt : Minimises opt) (c : Units.Cfg ℝ) (hh : 0 < c.h)
    (hL : 0 < c.outL) (hM : 0 < c.outM) (m : Method) (hfix : ∀ v, m.fixed "r_s" = some v → 0 < v)
    (r200s rOverR200 : List ℝ) (profs : List (List (Option ℝ))) (sel order : List Nat)
    (horder : order.Perm (List.range profs.length)) (rows : List (List (Option ℝ)))
    (h : fitDensProfs opt c m r200s rOverR200 profs sel order = some rows)
    (k i : Nat) (r200 : ℝ) (prof row : List (Option ℝ)) (hprof : profs[k]? = some prof)
    (hi : sel[k]? = some i) (hr : r200s[i]? = some r200) (hrow : rows[k]? = some row)
    (data : List (ℝ × ℝ)) (hdata : data = points rOverR200 (r200 * lengthRatio c) prof) (hne : data ≠ [])
    (hpos : ∀ rd ∈ data, 0 < rd.1 ∧ 0 < rd.2) :
    row = (m.profile.params.map fun _ => none) ∨
    ∃ best, row = (inUnits (densityRatio c) (lengthRatio c) m.profile best).map some ∧
      Admissible m (meanDensity data / densityRatio c / 10 ^ 7) best ∧
      ∀ y, Admissible m (meanDensity data / densityRatio c / 10 ^ 7) y →
        logDistance m.profile data (inUnits (densityRatio c) (lengthRatio c) m.profile best) ≤
          logDistance m.profile data (inUnits (densityRatio c) (lengthRatio c) m.profile y) := by
  obtain ⟨hl0, hd0⟩ := ratios_pos c hh hL hM
  have hk := (fitDensProfs_rows _ _ _ _ _ _ _ _ horder _ h).2 k
  rw [hrow, hprof, hi, Option.bind_some, Option.bind_some, hr, Option.map_some, Option.some.injEq] at hk
  rw [points_units c hh hL hM] at hdata
  have hne' : points rOverR200 r200 (toFitUnits c prof) ≠ [] := by
    intro h0; rw [h0] at hdata; exact hne hdata
  have hpos' : ∀ rd ∈ points rOverR200 r200 (toFitUnits c prof), 0 < rd.1 ∧ 0 < rd.2 := by
    intro rd hrd
    have := hpos _ (hdata ▸ List.mem_map_of_mem hrd)
    exact ⟨(mul_pos_iff_of_pos_right hl0).1 this.1, (mul_pos_iff_of_pos_right hd0).1 this.2⟩
  have hmean : meanDensity data / densityRatio c =
      meanDensity (points rOverR200 r200 (toFitUnits c prof)) := by
    rw [hdata]
    unfold meanDensity
    rw [List.map_map, List.length_map]
    have : ((fun rd : ℝ × ℝ => rd.2) ∘ fun rd : ℝ × ℝ => (rd.1 * lengthRatio c, rd.2 * densityRatio c)) =
      fun rd => rd.2 * densityRatio c := rfl
    rw [this, List.sum_map_mul_right]
    field_simp
  have hmpos := mean_pos _ hne' fun rd h => (hpos' rd h).2
  rcases best_fit opt hopt m hfix rOverR200 r200 (toFitUnits c prof) hne' hpos' with h1 | ⟨best, h1, h2, h3⟩
  · left
    rw [hk, h1]
    cases m.profile <;> rfl
  · right
    rw [h1, toOutUnits_some] at hk
    refine ⟨best, hk, by rw [hmean]; exact h2, fun y hy => ?_⟩
    rw [hmean] at hy
    rw [hdata, logDistance_inUnits m hfix _ (by positivity) best h2 _ _ hd0 hl0 _ hpos',
      logDistance_inUnits m hfix _ (by positivity) y hy _ _ hd0 hl0 _ hpos']
    exact h3 y hy

/-- The full claim of C87 is false: one vanishing density (an empty shell) suffices for a profile to
have no influence on the fit.  All parameters but the density are the same for any two such profiles,
so that the same concentration is reported for both. -/
theorem C87_empty_shell_refuted (opt : Optimiser) (rOverR200 : List ℝ) (m : Method) (r200 : ℝ)
    (prof prof' : List (Option ℝ)) (hlen : prof.length = rOverR200.length)
    (hlen' : prof'.length = rOverR200.length) (hp : some 0 ∈ prof) (hp' : some 0 ∈ prof') :
    (fitDensProf opt rOverR200 m prof r200).tail = (fitDensProf opt rOverR200 m prof' r200).tail := by
  have key : ∀ prof : List (Option ℝ), prof.length = rOverR200.length → some 0 ∈ prof → ∀ a : ℝ,
      residual m.profile ((fitData rOverR200 r200 prof).map fun rd => (rd.1, rd.2 / a)) = fun _ => ⊤ := by
    intro prof hlen hp a
    funext x
    unfold residual
    rw [if_neg]
    intro hall
    obtain ⟨k, hk⟩ := List.getElem?_of_mem hp
    have hkl : k < prof.length := (List.getElem?_eq_some_iff.1 hk).1
    have hz : (rOverR200.zip prof)[k]? = some (rOverR200[k]'(by omega), some 0) := by
      rw [List.getElem?_zip_eq_some]
      exact ⟨List.getElem?_eq_getElem _, hk⟩
    have hmem : ((rOverR200[k]'(by omega)) * r200, (0 : ℝ)) ∈ fitData rOverR200 r200 prof := by
      unfold fitData
      rw [List.mem_filterMap]
      exact ⟨_, List.mem_of_getElem? hz, rfl⟩
    have := hall _ (List.mem_map_of_mem hmem)
    simp at this
  have tails : ∀ (avg avg' : Option ℝ) (x : List ℝ), (rescale avg x).tail = (rescale avg' x).tail := by
    intro avg avg' x; cases x <;> rfl
  unfold fitDensProf
  simp only [key prof hlen hp, key prof' hlen' hp']
  cases opt (fun _ => ⊤) (guess m.profile r200) (m.profile.params.map (bound m)) with
  | none => rfl
  | some x => exact tails _ _ x

/-! ## C88 -/

/-- C88. A profile which is exactly that of the model for some parameters is reproduced exactly at all
radii with a perfect optimiser which finds a solution, in whatever output units. -/
theorem C88_exact_data (opt : Optimiser) (hopt : Minimises opt) (c : Units.Cfg ℝ) (hh : 0 < c.h)
    (hL : 0 < c.outL) (hM : 0 < c.outM) (m : Method) (hfix : ∀ v, m.fixed "r_s" = some v → 0 < v)
    (r200s rOverR200 : List ℝ) (profs : List (List (Option ℝ))) (sel order : List Nat)
    (horder : order.Perm (List.range profs.length)) (rows : List (List (Option ℝ)))
    (h : fitDensProfs opt c m r200s rOverR200 profs sel order = some rows)
    (k i : Nat) (r200 : ℝ) (prof row : List (Option ℝ)) (hprof : profs[k]? = some prof)
    (hi : sel[k]? = some i) (hr : r200s[i]? = some r200) (hrow : rows[k]? = some row)
    (data : List (ℝ × ℝ)) (hdata : data = points rOverR200 (r200 * lengthRatio c) prof) (hne : data ≠ [])
    (truth : List ℝ) (htruth : Admissible m (meanDensity data / densityRatio c / 10 ^ 7) truth)
    (hexact : ∀ rd ∈ data, 0 < rd.1 ∧
      rd.2 = density m.profile (inUnits (densityRatio c) (lengthRatio c) m.profile truth) rd.1)
    (hpos : ∀ rd ∈ data, 0 < rd.2)
    (best : List ℝ) (hbest : row = best.map some) :
    ∀ rd ∈ data, density m.profile best rd.1 = rd.2 := by
  rcases C87_best_fit_partial opt hopt c hh hL hM m hfix r200s rOverR200 profs sel order horder rows h
    k i r200 prof row hprof hi hr hrow data hdata hne (fun rd hrd => ⟨(hexact rd hrd).1, hpos rd hrd⟩)
    with h1 | ⟨best', h1, hadm, h2⟩
  · exfalso
    rw [hbest] at h1
    cases best with
    | nil => cases hp : m.profile <;> rw [hp] at h1 <;> simp [Profile.params] at h1
    | cons b bs => cases hp : m.profile <;> rw [hp] at h1 <;> simp [Profile.params] at h1
  · have hb : best = inUnits (densityRatio c) (lengthRatio c) m.profile best' := by
      have := hbest.symm.trans h1
      exact List.map_injective_iff.2 (Option.some_injective _) this
    obtain ⟨hl0, hd0⟩ := ratios_pos c hh hL hM
    have hbpos : ∀ rd ∈ data, 0 < density m.profile best rd.1 := by
      intro rd hrd
      have hr0 : 0 < rd.1 / lengthRatio c := div_pos (hexact rd hrd).1 hl0
      have := density_inUnits m _ best' hadm (densityRatio c) (lengthRatio c) (rd.1 / lengthRatio c) hl0.ne'
      rw [div_mul_cancel₀ _ hl0.ne', ← hb] at this
      rw [this]
      apply mul_pos hd0
      have hm := mean_pos data hne hpos
      cases best' with
      | nil => exact hadm.elim
      | cons rho rest =>
        exact density_pos m hfix rho rest (lt_of_lt_of_le (by positivity) hadm.1) hadm.2 _ hr0
    rw [← hb] at h2
    have h3 := h2 truth htruth
    have h0 : logDistance m.profile data (inUnits (densityRatio c) (lengthRatio c) m.profile truth) = 0 := by
      unfold logDistance
      apply List.sum_eq_zero
      intro x hx
      obtain ⟨rd, hrd, rfl⟩ := List.mem_map.1 hx
      rw [← (hexact rd hrd).2]
      simp
    rw [h0] at h3
    intro rd hrd
    have hle : (Real.log rd.2 - Real.log (density m.profile best rd.1)) ^ 2 ≤
        logDistance m.profile data best := by
      unfold logDistance
      exact List.single_le_sum (by
        intro x hx
        obtain ⟨rd, -, rfl⟩ := List.mem_map.1 hx
        positivity) _ (List.mem_map_of_mem (f := fun rd : ℝ × ℝ =>
          (Real.log rd.2 - Real.log (density m.profile best rd.1)) ^ 2) hrd)
    have hz : Real.log rd.2 - Real.log (density m.profile best rd.1) = 0 := by
      have := sq_nonneg (Real.log rd.2 - Real.log (density m.profile best rd.1))
      exact pow_eq_zero_iff (two_ne_zero) |>.1 (le_antisymm (hle.trans h3) this)
    exact (Real.log_injOn_pos (hpos rd hrd) (hbpos rd hrd) (sub_eq_zero.1 hz)).symm

end Verif.Fits
