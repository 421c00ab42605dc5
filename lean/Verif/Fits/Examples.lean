import Verif.Fits.QualityProps

/-!
# Concrete cases for the theorems about fits
-/

namespace Verif.Fits

open Classical in
/-- Returns the given parameters if they are a minimum, otherwise gives up. -/
noncomputable def oracle (x : List ℝ) : Optimiser := fun f _ bounds =>
  if InBox bounds x ∧ ∀ y, InBox bounds y → f x ≤ f y then some x else none

theorem oracle_minimises (x : List ℝ) : Minimises (oracle x) := by
  intro f start bounds y h
  unfold oracle at h
  split at h
  · rename_i hx
    rw [← Option.some.inj h]
    exact hx
  · cases h

theorem oracle_respects (x : List ℝ) : Respects (oracle x) :=
  fun f start bounds y h => (oracle_minimises x f start bounds y h).1

/-- Output in Mpc/h and Msun/h for h = 1. -/
noncomputable def cfg1 : Units.Cfg ℝ :=
  { inL := 1, inM := 1, inV := 1, h := 1, outL := 3085678 * 10 ^ 18, outM := 1989 * 10 ^ 30, outV := 1 }

theorem cfg1_length : lengthRatio cfg1 = 1 := by unfold lengthRatio cfg1; norm_num

theorem cfg1_density : densityRatio cfg1 = 1 := by
  unfold densityRatio; rw [cfg1_length]; unfold cfg1; norm_num

/-- A fit of the NFW profile. -/
def nfwMethod : Method := { profile := .nfw, fixed := fun _ => none }

theorem toFitUnits_cfg1 (prof : List (Option ℝ)) : toFitUnits cfg1 prof = prof := by
  unfold toFitUnits
  have : (fun d : Option ℝ => d.map fun d => d * (cfg1.outM / (fitUnits cfg1).2) *
      (cfg1.outL / (fitUnits cfg1).1) ^ (-3 : Int)) = id := by
    funext d
    cases d with
    | none => rfl
    | some d => simp [fitUnits, cfg1]; norm_num
  rw [this, List.map_id]

/-- The profile of an NFW halo of scale radius 1 at radii 1 and 3; NaN at radius 2. -/
noncomputable def exactProf : List (Option ℝ) := [some (1 / 4), none, some (1 / 48)]

theorem exact_points : points [1, 2, 3] 1 exactProf = [(1, 1 / 4), (3, 1 / 48)] := by
  simp [points, exactProf]

theorem exact_mean : meanDensity [(1, 1 / 4), (3, 1 / 48)] = 13 / 96 := by
  simp [meanDensity]; norm_num

/-- The optimum of the rescaled problem: density 1 over the mean 13/96. -/
theorem exact_fit : fitDensProfs (oracle [96 / 13, 1]) cfg1 nfwMethod [1] [1, 2, 3] [exactProf] [0] [0] =
    some [[some 1, some 1]] := by
  have hfit : fitDensProf (oracle [96 / 13, 1]) [1, 2, 3] nfwMethod exactProf 1 = [some 1, some 1] := by
    have hd : fitData [1, 2, 3] 1 exactProf = [(1, 1 / 4), (3, 1 / 48)] := exact_points
    unfold fitDensProf
    simp only [hd]
    have havg : average (List.map (fun rd : ℝ × ℝ => rd.2) [(1, 1 / 4), (3, 1 / 48)]) = some (13 / 96) := by
      simp [average]; norm_num
    rw [havg]
    have hopt : oracle [96 / 13, 1] (residual nfwMethod.profile (List.map (fun rd : ℝ × ℝ =>
        (rd.1, rd.2 / (some (13 / 96 : ℝ)).getD 1)) [(1, 1 / 4), (3, 1 / 48)]))
        (guess nfwMethod.profile 1) (nfwMethod.profile.params.map (bound nfwMethod)) =
        some [96 / 13, 1] := by
      unfold oracle
      rw [if_pos]
      constructor
      · simp [InBox, nfwMethod, Profile.params, bound]
        norm_num
      · intro y _
        have hp : ∀ rd ∈ List.map (fun rd : ℝ × ℝ => (rd.1, rd.2 / (some (13 / 96 : ℝ)).getD 1))
            [(1, 1 / 4), (3, 1 / 48)], 0 < rd.2 := by
          intro rd hrd
          simp only [List.map_cons, List.map_nil, List.mem_cons, List.not_mem_nil, or_false] at hrd
          rcases hrd with rfl | rfl <;> norm_num
        rw [residual_eq _ _ hp, residual_eq _ _ hp, WithTop.coe_le_coe]
        have h0 : logDistance nfwMethod.profile (List.map (fun rd : ℝ × ℝ =>
            (rd.1, rd.2 / (some (13 / 96 : ℝ)).getD 1)) [(1, 1 / 4), (3, 1 / 48)]) [96 / 13, 1] = 0 := by
          simp [logDistance, nfwMethod, density, Stats.nfw]
          norm_num
        rw [h0, zero_div]
        apply div_nonneg
        · unfold logDistance
          apply List.sum_nonneg
          intro x hx
          obtain ⟨rd, -, rfl⟩ := List.mem_map.1 hx
          positivity
        · positivity
    simp only [hopt]
    simp [rescale]
  have hval : validCall [exactProf] [0] 1 = true := by rw [validCall_iff]; simp
  unfold fitDensProfs
  rw [List.length_singleton, if_pos hval]
  have hh : fitHelper (oracle [96 / 13, 1]) [1, 2, 3] nfwMethod [exactProf] [1] [0] = [[some 1, some 1]] := by
    rw [C50_rows _ _ _ _ _ _ rfl (by simp [List.range_succ])]
    simp [hfit]
  have hs : ([0].filterMap fun i : Nat => ([1] : List ℝ)[i]?) = [1] := by simp
  rw [hs, List.map_singleton, toFitUnits_cfg1, hh]
  simp only [List.map_singleton]
  have := toOutUnits_some cfg1 .nfw [1, 1]
  rw [cfg1_length, cfg1_density] at this
  rw [show ([some 1, some 1] : List (Option ℝ)) = [1, 1].map some from rfl]
  show some [toOutUnits cfg1 .nfw _] = _
  rw [this]
  simp [inUnits, Profile.params, List.modify]

/-- C88 (and C87): hypotheses met by an NFW halo with a NaN in its profile. -/
example : ∀ rd ∈ [((1 : ℝ), (1 / 4 : ℝ)), (3, 1 / 48)], density .nfw [1, 1] rd.1 = rd.2 := by
  refine C88_exact_data _ (oracle_minimises [96 / 13, 1]) cfg1 (by norm_num [cfg1]) (by norm_num [cfg1])
    (by norm_num [cfg1]) nfwMethod (by simp [nfwMethod]) [1] [1, 2, 3] [exactProf] [0] [0]
    (by simp [List.range_succ]) _ exact_fit 0 0 1 exactProf _ rfl rfl rfl rfl _ ?_ (by simp)
    [1, 1] ?_ ?_ ?_ [1, 1] rfl
  · rw [cfg1_length, mul_one, exact_points]
  · rw [cfg1_density, exact_mean]
    refine ⟨by norm_num, ?_⟩
    simp [InBox, nfwMethod, Profile.params, bound]
    norm_num
  · rw [cfg1_density, cfg1_length]
    intro rd hrd
    simp only [List.mem_cons, List.not_mem_nil, or_false] at hrd
    rcases hrd with rfl | rfl <;>
      simp [inUnits, nfwMethod, Profile.params, List.modify, density, Stats.nfw] <;> norm_num
  · intro rd hrd
    simp only [List.mem_cons, List.not_mem_nil, or_false] at hrd
    rcases hrd with rfl | rfl <;> norm_num

/-- C50: a call for two objects which is accepted, results arriving in the other order. -/
example : ∃ rows, fitDensProfs (oracle [1, 1]) cfg1 nfwMethod [1, 2, 3] [1, 2]
    [[some 1, some 2], [none, some 1]] [2, 0] [1, 0] = some rows ∧ rows.length = 2 := by
  obtain ⟨rows, h⟩ := Option.isSome_iff_exists.1 ((C50_accepted (oracle [1, 1]) cfg1 nfwMethod [1, 2, 3] [1, 2]
    [[some 1, some 2], [none, some 1]] [2, 0] [1, 0]).2 (by simp))
  exact ⟨rows, h, (C50_no_crosstalk _ _ _ _ _ _ _ _ (by decide) _ h).1⟩

/-- C51: `alpha = 0.18` given for an Einasto profile, two objects. -/
example : ∃ rows, fitDensProfs (oracle [1, 18 / 100, 1]) cfg1 (give ⟨.einasto, fun _ => none⟩ "alpha" (18 / 100))
    [1, 2, 3] [1, 2] [[some 1, some 2], [none, some 1]] [2, 0] [1, 0] = some rows ∧
    ∀ row ∈ rows, row[1]? = some none ∨ row[1]? = some (some (18 / 100)) := by
  obtain ⟨rows, h⟩ := Option.isSome_iff_exists.1 ((C50_accepted (oracle [1, 18 / 100, 1]) cfg1
    (give ⟨.einasto, fun _ => none⟩ "alpha" (18 / 100)) [1, 2, 3] [1, 2]
    [[some 1, some 2], [none, some 1]] [2, 0] [1, 0]).2 (by simp))
  exact ⟨rows, h, C51_given_partial _ (oracle_respects _) _ _ _ _ _ _ _ (by decide) _ h 1 "alpha" _ rfl
    (by simp) (by simp [give])⟩

/-- C51: `r_s = 1` given for an NFW profile and output in kpc: 1000 is returned, if anything. -/
example : ∃ rows, fitDensProfs (oracle [1, 1]) { cfg1 with outL := 3085678 * 10 ^ 15 } (give nfwMethod "r_s" 1)
    [1, 2, 3] [1, 2] [[some 1, some 2], [none, some 1]] [2, 0] [1, 0] = some rows ∧
    ∀ row ∈ rows, ∀ x, row.getLast? = some (some x) → x = 1000 := by
  obtain ⟨rows, h⟩ := Option.isSome_iff_exists.1 ((C50_accepted (oracle [1, 1])
    { cfg1 with outL := 3085678 * 10 ^ 15 } (give nfwMethod "r_s" 1) [1, 2, 3] [1, 2]
    [[some 1, some 2], [none, some 1]] [2, 0] [1, 0]).2 (by simp))
  refine ⟨rows, h, fun row hrow x hx => ?_⟩
  rw [(C51_scale_radius_refuted _ (oracle_respects _) _ _ _ _ _ _ _ (by decide) _ h 1 (by simp [give])
    one_ne_zero (by norm_num [cfg1]) (by norm_num) row hrow x hx).1]
  norm_num [cfg1]

/-- C51: the concentration of the halo above. -/
example : ∃ cs, estConcentrations (oracle [96 / 13, 1]) cfg1 nfwMethod [1] [1, 2, 3] [exactProf] [0] [0] = some cs ∧
    cs[0]? = some (some 1) := by
  obtain ⟨cs, h1, -, h2⟩ := C51_concentration _ (oracle_respects [96 / 13, 1]) cfg1 nfwMethod [1] [1, 2, 3] [exactProf]
    [0] [0] (by simp [List.range_succ]) (by norm_num [cfg1]) (by norm_num [cfg1]) _ exact_fit
  refine ⟨cs, h1, ?_⟩
  rw [(h2 0 0 1 _ rfl rfl rfl).2 1 one_ne_zero rfl]
  norm_num [cfg1]

/-- C87: two different profiles with an empty shell. -/
example (opt : Optimiser) :
    (fitDensProf opt [1, 2, 3] nfwMethod [some 5, some 1, some 0] 1).tail =
      (fitDensProf opt [1, 2, 3] nfwMethod [some 1, some 0, some 70] 1).tail :=
  C87_empty_shell_refuted opt _ _ _ _ _ rfl rfl (by simp) (by simp)

end Verif.Fits
