import Verif.Mock.Uniform

/-!
# What the mock halo generator does to its arguments (C164)

cosmic_profiles/mock_tools/mock_halo_gen.py.  Here `model_pars` is the dictionary of the caller, which the
generator receives by reference: what it writes is seen by the caller and by later calls.
-/

namespace Verif.Mock

/-- A dictionary from names to numbers. -/
abbrev Dict := String → Option ℝ

/-- `d[k] = v`. -/
def Dict.set (d : Dict) (k : String) (v : ℝ) : Dict := fun k' => if k' = k then some v else d k'

/-- `d[k]` for a name which is present; lookups of missing names are found beforehand, see `missing`. -/
def Dict.at (d : Dict) (k : String) : ℝ := (d k).getD 0

/-- Exceptions: `KeyError`, or one of those of `genHalo`. -/
inductive CallErr
  | key (name : String)
  | other (e : Err)
  deriving DecidableEq

/-- The names looked up by `getMassIntegrand0`, in their order, mock_halo_gen.py:43-58. -/
def names (profile : String) : List String :=
  if profile = "einasto" then ["alpha", "r_s"]
  else if profile = "alpha_beta_gamma" then ["alpha", "beta", "gamma", "r_s"]
  else ["r_s"]

/-- The first name which is not there. -/
def missing (profile : String) (d : Dict) : Option String := (names profile).find? fun k => (d k).isNone

/-- `getMassIntegrand0(r, profile, model_pars)`, mock_halo_gen.py:42-58. -/
noncomputable def dictIntegrand0 (profile : String) (d : Dict) (r : ℝ) : ℝ :=
  if profile = "einasto" then
    4 * Real.pi * r ^ 2 * Real.exp (-2 / d.at "alpha" * ((r / d.at "r_s") ^ d.at "alpha" - 1))
  else if profile = "alpha_beta_gamma" then
    4 * Real.pi * r ^ 2 / ((r / d.at "r_s") ^ d.at "gamma" *
      (1 + (r / d.at "r_s") ^ d.at "alpha") ^ ((d.at "beta" - d.at "gamma") / d.at "alpha"))
  else if profile = "hernquist" then 4 * Real.pi * r ^ 2 / (r / d.at "r_s" * (1 + r / d.at "r_s") ^ 3)
  else 4 * Real.pi * r ^ 2 / (r / d.at "r_s" * (1 + r / d.at "r_s") ^ 2)

/-- `getMassIntegrand(r, model_pars)`, mock_halo_gen.py:64-72, with the profile models of
dens_profs_tools.py:31-81, which look up `rho_s` in the dictionary. -/
noncomputable def dictIntegrand (profile : String) (d : Dict) (r : ℝ) : ℝ :=
  if profile = "einasto" then 4 * Real.pi * r ^ 2 * Stats.einasto (d.at "rho_s") (d.at "alpha") (d.at "r_s") r
  else if profile = "alpha_beta_gamma" then
    4 * Real.pi * r ^ 2 * Stats.alphaBetaGamma (d.at "rho_s") (d.at "alpha") (d.at "beta") (d.at "gamma") (d.at "r_s") r
  else if profile = "hernquist" then 4 * Real.pi * r ^ 2 * Stats.hernquist (d.at "rho_s") (d.at "r_s") r
  else 4 * Real.pi * r ^ 2 * Stats.nfw (d.at "rho_s") (d.at "r_s") r

/-- mock_halo_gen.py:74-111: everything after `model_pars['rho_s'] = rho_s`. -/
noncomputable def haloFrom (mass : ℝ → ℝ → ℝ) (tot res rho : ℝ) (s : Axes) : Except Err Halo :=
  match firstCount mass res tot s.a with
  | .error e => .error e
  | .ok N1 =>
    match coarsenLoop mass res tot s N1 0 with
    | .error e => .error e
    | .ok (s', N1') =>
      match s'.a with
      | a0 :: a1 :: l =>
        let n := counts mass (a0 :: a1 :: l) N1' (mass a0 a1)
        if n.any (· < 0) then .error .value
        else .ok ⟨s', n, mass start ((a0 :: a1 :: l).getLast (by simp)) / (n.sum : ℤ), rho⟩
      | _ => .error .index

/-- What the caller gives besides the dictionary. -/
structure Request where
  tot : ℝ
  res : ℝ
  profile : String
  axes : Axes

/-- An exception inside `genHalo` is an exception of the call. -/
def wrap {α : Type} : Except Err α → Except CallErr α
  | .ok a => .ok a
  | .error e => .error (.other e)

/-- `genHalo(tot_mass, res, model_pars, profile, a, b, c)`, mock_halo_gen.py:16-113: the result and the dictionary
of the caller afterwards.  `a`, `b`, `c` are only rebound, never written to.  As in `genHalo`, the positions are
left out. -/
noncomputable def genHaloCall (q : Request) (d : Dict) : Except CallErr Halo × Dict :=
  match q.axes.a.getLast? with
  | none => (.error (.other .index), d)
  | some aLast =>
    match missing q.profile d with
    | some k => (.error (.key k), d)
    | none =>
      let rho := q.tot / quad (dictIntegrand0 q.profile d) start aLast
      let d' := d.set "rho_s" rho
      (wrap (haloFrom (quad (dictIntegrand q.profile d')) q.tot q.res rho q.axes), d')

/-- A script which calls the generator several times with one and the same dictionary. -/
noncomputable def genHaloCalls : List Request → Dict → List (Except CallErr Halo) × Dict
  | [], d => ([], d)
  | q :: l, d =>
    let r := genHaloCall q d
    let rest := genHaloCalls l r.2
    (r.1 :: rest.1, rest.2)

/-! ## Specification -/

/-- The parameters of the model called `profile`, as documented: two for `einasto`, four for `alpha_beta_gamma`, one for
the others. -/
def modelOf (profile : String) (d : Dict) : Option Prof :=
  if profile = "einasto" then do return .einasto (← d "alpha") (← d "r_s")
  else if profile = "alpha_beta_gamma" then do
    return .abg (← d "alpha") (← d "beta") (← d "gamma") (← d "r_s")
  else if profile = "hernquist" then do return .hernquist (← d "r_s")
  else do return .nfw (← d "r_s")

/-- Two dictionaries with the same entries, except that `rho_s` may differ or be absent. -/
def SameParameters (d e : Dict) : Prop := ∀ k, k ≠ "rho_s" → d k = e k

/-! ## Proofs -/

theorem genHalo_haloFrom (tot res : ℝ) (p : Prof) (s : Axes) :
    genHalo tot res p s = match s.a.getLast? with
      | none => .error .index
      | some aLast => haloFrom (quad (integrand (tot / quad (integrand0 p) start aLast) p)) tot res
          (tot / quad (integrand0 p) start aLast) s := rfl

theorem at_of {d : Dict} {k : String} {v : ℝ} (h : d k = some v) : d.at k = v := by
  unfold Dict.at; rw [h]; rfl

theorem set_same (d : Dict) (k : String) (v : ℝ) : (d.set k v) k = some v := if_pos rfl

theorem set_other (d : Dict) {k k' : String} (v : ℝ) (h : k' ≠ k) : (d.set k v) k' = d k' := if_neg h

theorem model_missing (profile : String) (d : Dict) : (modelOf profile d).isNone = (missing profile d).isSome := by
  unfold modelOf missing names
  split
  · cases h1 : d "alpha" <;> cases h2 : d "r_s" <;> simp [h1, h2]
  split
  · cases h1 : d "alpha" <;> cases h2 : d "beta" <;> cases h3 : d "gamma" <;> cases h4 : d "r_s" <;> simp [h1, h2, h3, h4]
  split
  · cases h2 : d "r_s" <;> simp [h2]
  · cases h2 : d "r_s" <;> simp [h2]

theorem integrand0_model {profile : String} {d : Dict} {p : Prof} (h : modelOf profile d = some p) :
    dictIntegrand0 profile d = integrand0 p := by
  funext r
  unfold modelOf at h
  unfold dictIntegrand0
  split at h
  · rename_i hp
    rw [if_pos hp]
    cases h1 : d "alpha" <;> cases h2 : d "r_s" <;> simp [h1, h2] at h
    subst h
    rw [at_of h1, at_of h2]; rfl
  rename_i hp
  rw [if_neg hp]
  split at h
  · rename_i hq
    rw [if_pos hq]
    cases h1 : d "alpha" <;> cases h2 : d "beta" <;> cases h3 : d "gamma" <;> cases h4 : d "r_s" <;>
      simp [h1, h2, h3, h4] at h
    subst h
    rw [at_of h1, at_of h2, at_of h3, at_of h4]; rfl
  rename_i hq
  rw [if_neg hq]
  split at h
  · rename_i hh
    rw [if_pos hh]
    cases h2 : d "r_s" <;> simp [h2] at h
    subst h
    rw [at_of h2]; rfl
  · rename_i hh
    rw [if_neg hh]
    cases h2 : d "r_s" <;> simp [h2] at h
    subst h
    rw [at_of h2]; rfl

theorem integrand_model {profile : String} {d : Dict} {p : Prof} {rho : ℝ} (h : modelOf profile d = some p)
    (hr : d "rho_s" = some rho) : dictIntegrand profile d = integrand rho p := by
  funext r
  unfold modelOf at h
  unfold dictIntegrand
  split at h
  · rename_i hp
    rw [if_pos hp]
    cases h1 : d "alpha" <;> cases h2 : d "r_s" <;> simp [h1, h2] at h
    subst h
    rw [at_of h1, at_of h2, at_of hr]; rfl
  rename_i hp
  rw [if_neg hp]
  split at h
  · rename_i hq
    rw [if_pos hq]
    cases h1 : d "alpha" <;> cases h2 : d "beta" <;> cases h3 : d "gamma" <;> cases h4 : d "r_s" <;>
      simp [h1, h2, h3, h4] at h
    subst h
    rw [at_of h1, at_of h2, at_of h3, at_of h4, at_of hr]; rfl
  rename_i hq
  rw [if_neg hq]
  split at h
  · rename_i hh
    rw [if_pos hh]
    cases h2 : d "r_s" <;> simp [h2] at h
    subst h
    rw [at_of h2, at_of hr]; rfl
  · rename_i hh
    rw [if_neg hh]
    cases h2 : d "r_s" <;> simp [h2] at h
    subst h
    rw [at_of h2, at_of hr]; rfl

theorem model_same {profile : String} {d e : Dict} (h : SameParameters d e) : modelOf profile d = modelOf profile e := by
  unfold modelOf
  rw [h "alpha" (by decide), h "beta" (by decide), h "gamma" (by decide), h "r_s" (by decide)]

theorem missing_same {profile : String} {d e : Dict} (h : SameParameters d e) : missing profile d = missing profile e := by
  have hk : ∀ l : List String, "rho_s" ∉ l → (l.find? fun k => (d k).isNone) = l.find? fun k => (e k).isNone := by
    intro l
    induction l with
    | nil => intro _; rfl
    | cons k l ih =>
      intro hl
      rw [List.mem_cons, not_or] at hl
      rw [List.find?_cons, List.find?_cons, h k (Ne.symm hl.1), ih hl.2]
  refine hk _ ?_
  unfold names
  split
  · decide
  split
  · decide
  · decide

/-- The generator with a complete dictionary is the generator with the model. -/
theorem call_model (q : Request) (d : Dict) (p : Prof) (h : modelOf q.profile d = some p) :
    (genHaloCall q d).1 = wrap (genHalo q.tot q.res p q.axes) := by
  have hm : missing q.profile d = none := by
    have := model_missing q.profile d
    rw [h] at this
    cases hx : missing q.profile d with
    | none => rfl
    | some k => rw [hx] at this; cases this
  unfold genHaloCall
  rw [genHalo_haloFrom]
  cases q.axes.a.getLast? with
  | none => rfl
  | some aLast =>
    rw [hm]
    dsimp only
    rw [integrand0_model h]
    rw [integrand_model (p := p) (rho := q.tot / quad (integrand0 p) start aLast) ?_ (set_same _ _ _)]
    rw [← h]
    exact model_same fun k hk => set_other d _ hk

theorem call_untouched (q : Request) (d : Dict) : SameParameters (genHaloCall q d).2 d := by
  intro k hk
  unfold genHaloCall
  cases q.axes.a.getLast? with
  | none => rfl
  | some aLast =>
    cases missing q.profile d with
    | some k' => rfl
    | none => exact set_other d _ hk

theorem call_same (q : Request) {d e : Dict} (h : SameParameters d e) : (genHaloCall q d).1 = (genHaloCall q e).1 := by
  cases hm : modelOf q.profile d with
  | some p => rw [call_model q d p hm, call_model q e p (by rw [← model_same h, hm])]
  | none =>
    have h1 := model_missing q.profile d
    rw [hm] at h1
    unfold genHaloCall
    cases q.axes.a.getLast? with
    | none => rfl
    | some aLast =>
      cases hx : missing q.profile d with
      | none => rw [hx] at h1; cases h1
      | some k => rw [← missing_same h, hx]

/-- **C164 (proved part)**.  The halo is the one of the documented parameters of the model.  The
entries of the dictionary of the caller other than `rho_s` are left alone; after success `rho_s` is the value
which is also returned.  If a parameter is missing, that is an error and the dictionary is as before.  Missing for
the full claim: `rho_s` is left alone, which is false, `C164_untouched_refuted`. -/
theorem C164_arguments_partial (q : Request) (d : Dict) :
    (∀ p, modelOf q.profile d = some p → (genHaloCall q d).1 = wrap (genHalo q.tot q.res p q.axes)) ∧
    SameParameters (genHaloCall q d).2 d ∧
    (∀ h, (genHaloCall q d).1 = .ok h → (genHaloCall q d).2 "rho_s" = some h.rho) ∧
    (modelOf q.profile d = none → (∃ e, (genHaloCall q d).1 = .error e) ∧ (genHaloCall q d).2 = d) := by
  refine ⟨fun p h => call_model q d p h, call_untouched q d, ?_, ?_⟩
  · intro h hh
    cases hm : modelOf q.profile d with
    | some p =>
      rw [call_model q d p hm] at hh
      have hg : genHalo q.tot q.res p q.axes = .ok h := by
        cases hx : genHalo q.tot q.res p q.axes with
        | error e => rw [hx] at hh; cases hh
        | ok h' => rw [hx] at hh; injection hh with hh; rw [hh]
      obtain ⟨aLast, _, _, _, _, _, hl, hr, _⟩ := genHalo_ok hg
      have hmiss : missing q.profile d = none := by
        have := model_missing q.profile d
        rw [hm] at this
        cases hx : missing q.profile d with
        | none => rfl
        | some k => rw [hx] at this; cases this
      unfold genHaloCall
      rw [hl, hmiss]
      dsimp only
      rw [set_same, integrand0_model hm, hr]
    | none =>
      have h1 := model_missing q.profile d
      rw [hm] at h1
      exfalso
      unfold genHaloCall at hh
      cases hl : q.axes.a.getLast? with
      | none => rw [hl] at hh; cases hh
      | some aLast =>
        cases hx : missing q.profile d with
        | none => rw [hx] at h1; cases h1
        | some k => rw [hl, hx] at hh; cases hh
  · intro hm
    have h1 := model_missing q.profile d
    rw [hm] at h1
    unfold genHaloCall
    cases hl : q.axes.a.getLast? with
    | none => exact ⟨⟨_, rfl⟩, rfl⟩
    | some aLast =>
      cases hx : missing q.profile d with
      | none => rw [hx] at h1; cases h1
      | some k => exact ⟨⟨_, rfl⟩, rfl⟩

/-- **C164**.  However often the generator was called with the same dictionary before, for whatever masses, shells and
models, successfully or not: every halo is the one a first call gives. -/
theorem C164_repeated (l : List Request) (d : Dict) :
    (genHaloCalls l d).1 = l.map fun q => (genHaloCall q d).1 := by
  have key : ∀ (l : List Request) (d e : Dict), SameParameters e d →
      (genHaloCalls l e).1 = l.map fun q => (genHaloCall q d).1 := by
    intro l
    induction l with
    | nil => intro d e _; rfl
    | cons q l ih =>
      intro d e h
      show (genHaloCall q e).1 :: (genHaloCalls l (genHaloCall q e).2).1 = _
      rw [List.map_cons, call_same q h, ih d _ fun k hk => (call_untouched q e k hk).trans (h k hk)]
  exact key l d d fun _ _ => rfl

/-- Parameters of an NFW halo, as documented: the scale radius only. -/
def nfwPars : Dict := fun k => if k = "r_s" then some 1 else none

/-- A request for a round NFW halo of two shells. -/
def someRequest : Request := ⟨1, 100, "nfw", ⟨[1, 2], [1, 2], [1, 2]⟩⟩

/-- The parameters are complete for that model. -/
example : modelOf "nfw" nfwPars = some (.nfw 1) := rfl

/-- … and not for another one. -/
example : modelOf "einasto" nfwPars = none := rfl

/-- Calls succeed: for enough particles there is a halo. -/
example : ∃ res h, (genHaloCall ⟨1, res, "nfw", ⟨[1, 2], [1, 2], [1, 2]⟩⟩ nfwPars).1 = .ok h := by
  have hp : (Prof.nfw 1).Pos := by show (0 : ℝ) < 1; norm_num
  have hst : start < 1 := by unfold start; norm_num
  have h1 : 0 < quad (integrand0 (.nfw 1)) 1 2 := quad0_pos hp (by norm_num) (by norm_num)
  have h2 : 0 < quad (integrand0 (.nfw 1)) start 2 := quad0_pos hp start_pos (by linarith)
  obtain ⟨h, hh⟩ := C65_no_failure 1 (quad (integrand0 (.nfw 1)) start 2 / quad (integrand0 (.nfw 1)) 1 2) one_pos
    (div_pos h2 h1) (.nfw 1) hp ⟨[1, 2], [1, 2], [1, 2]⟩ (by simp; constructor <;> linarith) (by simp) (by simp)
    (by simp only [List.length_cons, List.length_nil]; have := Nat.one_le_two_pow (n := 1000); omega)
    1 2 rfl rfl (by rw [div_mul_div_cancel₀ h1.ne', div_self h2.ne']; norm_num)
  refine ⟨quad (integrand0 (.nfw 1)) start 2 / quad (integrand0 (.nfw 1)) 1 2, h, ?_⟩
  rw [call_model _ nfwPars (.nfw 1) rfl, hh]
  rfl

/-- **C164 (refutation)**: the dictionary of the caller is changed.  It had the documented one entry and has two
afterwards. -/
theorem C164_untouched_refuted :
    ¬ ∀ (q : Request) (d : Dict), (genHaloCall q d).2 = d := by
  intro h
  have h1 := congrFun (h someRequest nfwPars) "rho_s"
  have h2 : (genHaloCall someRequest nfwPars).2 "rho_s" = some (1 / quad (dictIntegrand0 "nfw" nfwPars) start 2) := by
    have hm : missing someRequest.profile nfwPars = none := rfl
    have hl : someRequest.axes.a.getLast? = some 2 := rfl
    unfold genHaloCall
    rw [hl, hm]
    dsimp only
    rw [set_same]
    rfl
  rw [h2] at h1
  cases h1

end Verif.Mock
