import Verif.Fits.Examples
import Verif.Fits.CheckProps
import Mathlib.Tactic.IntervalCases

/-!
# Results of `fitDensProfs` as the user gets them (C108, C109)

From the `method` dictionary to the structured array with named fields and the flag `is_conv`.
-/

namespace Verif.Fits

/-! ## Model -/

/-- What `scipy.optimize.minimize` returns: the parameters `x` and whether it claims `success`. -/
structure OptRes where
  x : List ℝ
  success : Bool

/-- `scipy.optimize.minimize`; `none` = `ValueError`. -/
abbrev Scipy := (List ℝ → WithTop ℝ) → List ℝ → List Bound → Option OptRes

/-- Only `res.x` is read, dens_profs_tools.py:286, 311, 321. -/
def Scipy.opt (s : Scipy) : Optimiser := fun f start bounds => (s f start bounds).map OptRes.x

/-- The dictionary as the fit reads it, dens_profs_tools.py:272-321.  Given parameters which are not numbers
are not modelled (taken as not given). -/
noncomputable def methodOf (d : Dict) : Method where
  profile :=
    if d.eqStr "profile" "einasto" then .einasto
    else if d.eqStr "profile" "alpha_beta_gamma" then .abg
    else if d.eqStr "profile" "hernquist" then .hernquist
    else .nfw
  fixed name := (d.get name).bind fun v => match v with
    | .num x => some (x : ℝ)
    | _ => none

/-- Entry of the structured array: values of the named fields (`none` = NaN) and `is_conv`. -/
structure Fit where
  fields : List (String × Option ℝ)
  isConv : Bool

/-- `best_fits[i,k]`; columns beyond the last do not occur. -/
def col (row : List (Option ℝ)) (k : Nat) : Option ℝ := (row[k]?).join

/-- dens_profs_classes.pyx:177-194: the columns get names; `is_conv` is `~np.isnan(best_fits[:,1])`. -/
def structured (p : Profile) (row : List (Option ℝ)) : Fit where
  fields := match p with
    | .einasto => [("rho_s", col row 0), ("alpha", col row 1), ("r_s", col row 2)]
    | .nfw | .hernquist => [("rho_s", col row 0), ("r_s", col row 1)]
    | .abg => [("rho_s", col row 0), ("alpha", col row 1), ("beta", col row 2), ("gamma", col row 3),
        ("r_s", col row 4)]
  isConv := (col row 1).isSome

/-- `fitDensProfs` as called by the user on process `rank`, dens_profs_classes.pyx:162-195 and
cosmic_base_class.pyx:1001-1045.  On processes other than 0 `best_fits` is `None`, and `best_fits[:,0]`
raises `TypeError`. -/
noncomputable def userFit (s : Scipy) (c : Units.Cfg ℝ) (rank : Nat) (a : Arg) (r200s rOverR200 : List ℝ)
    (profs : List (List (Option ℝ))) (sel order : List Nat) : Except Err (List Fit) :=
  match a with
  | .notDict => .error .assertionError
  | .dict d =>
    (checkDensFitMethod (.dict d)).bind fun _ =>
    if profs.length ≠ sel.length then .error .valueError
    else if rank = 0 then
      match fitDensProfs s.opt c (methodOf d) r200s rOverR200 profs sel order with
      | some rows => .ok (rows.map (structured (methodOf d).profile))
      | none => .error .valueError
    else .error .typeError

/-- `estConcentrations` on process `rank`, dens_profs_classes.pyx:196-213: `.ok none` = `None`. -/
noncomputable def userConcentrations (s : Scipy) (c : Units.Cfg ℝ) (rank : Nat) (a : Arg)
    (r200s rOverR200 : List ℝ) (profs : List (List (Option ℝ))) (sel order : List Nat) :
    Except Err (Option (List (Option ℝ))) :=
  match a with
  | .notDict => .error .assertionError
  | .dict d =>
    (checkDensFitMethod (.dict d)).bind fun _ =>
    if profs.length ≠ sel.length then .error .valueError
    else if rank = 0 then
      match estConcentrations s.opt c (methodOf d) r200s rOverR200 profs sel order with
      | some cs => .ok (some cs)
      | none => .error .valueError
    else .ok none

/-! ## Specification -/

/-- The field of the given name. -/
def Fit.field (f : Fit) (name : String) : Option (Option ℝ) := f.fields.lookup name

/-- The profile has a density (a number) at some radius. -/
def Measured (rOverR200 : List ℝ) (prof : List (Option ℝ)) : Prop := ∃ rd ∈ rOverR200.zip prof, rd.2 ≠ none

/-! ## Lemmas -/

theorem userFit_ok (s : Scipy) (c : Units.Cfg ℝ) (rank : Nat) (a : Arg) (r200s rOverR200 : List ℝ)
    (profs : List (List (Option ℝ))) (sel order : List Nat) (fits : List Fit)
    (h : userFit s c rank a r200s rOverR200 profs sel order = .ok fits) :
    ∃ d rows, a = .dict d ∧ checkDensFitMethod (.dict d) = .ok () ∧ rank = 0 ∧
      fitDensProfs s.opt c (methodOf d) r200s rOverR200 profs sel order = some rows ∧
      fits = rows.map (structured (methodOf d).profile) := by
  cases a with
  | notDict => simp [userFit] at h
  | dict d =>
    unfold userFit at h
    dsimp only at h
    cases hc : checkDensFitMethod (.dict d) with
    | error e => rw [hc] at h; simp [Except.bind] at h
    | ok u =>
      rw [hc] at h
      simp only [Except.bind] at h
      split at h
      · simp at h
      · split at h
        · rename_i hr
          cases hf : fitDensProfs s.opt c (methodOf d) r200s rOverR200 profs sel order with
          | none => rw [hf] at h; simp at h
          | some rows =>
            rw [hf] at h
            exact ⟨d, rows, rfl, hc, hr, hf, (Except.ok.inj h).symm⟩
        · simp at h

/-- Value of a column by name. -/
theorem field_structured (p : Profile) (row : List (Option ℝ)) (name : String) (k : Nat)
    (h : p.params[k]? = some name) : (structured p row).field name = some (col row k) := by
  have hk : k < p.params.length := (List.getElem?_eq_some_iff.1 h).1
  cases p <;> simp only [Profile.params, List.length_cons, List.length_nil] at hk h <;>
    interval_cases k <;> simp at h <;> subst h <;> rfl

theorem fields_structured (p : Profile) (row : List (Option ℝ)) :
    (structured p row).fields.map Prod.fst = p.params := by
  cases p <;> rfl

theorem average_none (l : List ℝ) : average l = none ↔ l = [] := by
  unfold average; split <;> simp_all

theorem fitData_measured (rOverR200 : List ℝ) (r200 : ℝ) (prof : List (Option ℝ)) :
    Measured rOverR200 prof ↔ fitData rOverR200 r200 prof ≠ [] := by
  unfold Measured fitData
  rw [Ne, List.filterMap_eq_nil_iff]
  push Not
  constructor
  · rintro ⟨rd, hm, hn⟩
    exact ⟨rd, hm, by simpa using hn⟩
  · rintro ⟨rd, hm, hn⟩
    exact ⟨rd, hm, by simpa using hn⟩

theorem measured_units (c : Units.Cfg ℝ) (rOverR200 : List ℝ) (prof : List (Option ℝ)) :
    Measured rOverR200 (toFitUnits c prof) ↔ Measured rOverR200 prof := by
  unfold Measured toFitUnits
  rw [List.zip_map_right]
  simp

theorem col_toOutUnits (c : Units.Cfg ℝ) (p : Profile) (row : List (Option ℝ)) (k : Nat) :
    (col (toOutUnits c p row) k).isSome = (col row k).isSome := by
  unfold col toOutUnits modifyCol
  rw [List.getElem?_modify, List.getElem?_modify]
  cases row[k]? with
  | none => rfl
  | some x =>
    by_cases h1 : rsColumn p = k <;> by_cases h2 : 0 = k <;> simp [h1, h2]

theorem col_rescale (avg : Option ℝ) (x : List ℝ) (k : Nat) (hk : k < x.length) :
    (col (rescale avg x) k).isSome = if k = 0 then avg.isSome else true := by
  cases x with
  | nil => simp at hk
  | cons a x =>
    cases k with
    | zero => simp [col, rescale]
    | succ k =>
      simp only [List.length_cons, Nat.add_lt_add_iff_right] at hk
      simp [col, rescale, hk]

/-- The rows behind the entries. -/
theorem entry_row (s : Scipy) (c : Units.Cfg ℝ) (rank : Nat) (a : Arg) (r200s rOverR200 : List ℝ)
    (profs : List (List (Option ℝ))) (sel order : List Nat) (horder : order.Perm (List.range profs.length))
    (fits : List Fit) (h : userFit s c rank a r200s rOverR200 profs sel order = .ok fits) :
    ∃ d, a = .dict d ∧ fits.length = profs.length ∧ profs.length = sel.length ∧
      ∀ (k : Nat) (f : Fit), fits[k]? = some f → ∃ i r200 prof, sel[k]? = some i ∧ r200s[i]? = some r200 ∧
        profs[k]? = some prof ∧ f = structured (methodOf d).profile (toOutUnits c (methodOf d).profile
          (fitDensProf s.opt rOverR200 (methodOf d) (toFitUnits c prof) r200)) := by
  obtain ⟨d, rows, rfl, -, -, hf, rfl⟩ := userFit_ok _ _ _ _ _ _ _ _ _ _ h
  have hv := (C50_accepted s.opt c (methodOf d) r200s rOverR200 profs sel order).1 (by rw [hf]; rfl)
  have hr := fitDensProfs_rows _ _ _ _ _ _ _ _ horder _ hf
  refine ⟨d, rfl, by simpa using hr.1, hv.1, fun k f hk => ?_⟩
  rw [List.getElem?_map, Option.map_eq_some_iff] at hk
  obtain ⟨row, hrow, rfl⟩ := hk
  have hr2 := hr.2 k
  rw [hrow] at hr2
  obtain ⟨prof, hp, hr2⟩ := Option.bind_eq_some_iff.1 hr2.symm
  obtain ⟨r200, hr200, rfl⟩ := Option.map_eq_some_iff.1 hr2
  obtain ⟨i, hi, hri⟩ := Option.bind_eq_some_iff.1 hr200
  exact ⟨i, r200, prof, hi, hri, hp, rfl⟩

theorem profile_params (d : Dict) (h : checkDensFitMethod (.dict d) = .ok ()) :
    ∃ name, d.get "profile" = some (.str name) ∧ (name, (methodOf d).profile.params) ∈ documentedProfiles := by
  obtain ⟨name, pars, hm, hp, -⟩ := (C49_accepts_iff d).1 h
  refine ⟨name, hp, ?_⟩
  have e : ∀ t, d.eqStr "profile" t = decide (name = t) := by
    intro t; simp [Dict.eqStr, hp]
  simp only [documentedProfiles, List.mem_cons, Prod.mk.injEq, List.not_mem_nil, or_false] at hm ⊢
  rcases hm with ⟨rfl, -⟩ | ⟨rfl, -⟩ | ⟨rfl, -⟩ | ⟨rfl, -⟩ <;>
    simp [methodOf, e, Profile.params]

theorem mem_fields (p : Profile) (row : List (Option ℝ)) (nv : String × Option ℝ)
    (h : nv ∈ (structured p row).fields) : ∃ k, k < p.params.length ∧ nv.2 = col row k := by
  obtain ⟨j, hj, rfl⟩ := List.mem_iff_getElem.1 h
  have hl : (structured p row).fields.length = p.params.length := by
    rw [← fields_structured p row, List.length_map]
  refine ⟨j, hl ▸ hj, ?_⟩
  cases p <;> simp only [structured, List.length_cons, List.length_nil] at hj <;>
    interval_cases j <;> rfl

theorem params_length (p : Profile) : 2 ≤ p.params.length := by cases p <;> simp [Profile.params]

/-! ## C108 -/

/-- C108, the part which holds.  There is one entry per profile, with exactly the parameters of the
requested model as fields.  An entry which is not flagged as converged consists of NaN only; one which is
flagged consists of numbers only, provided the profile has a density at some radius at all. -/
theorem C108_flag_partial (s : Scipy) (hs : Respects s.opt) (c : Units.Cfg ℝ) (rank : Nat) (d : Dict)
    (r200s rOverR200 : List ℝ) (profs : List (List (Option ℝ))) (sel order : List Nat)
    (horder : order.Perm (List.range profs.length)) (fits : List Fit)
    (h : userFit s c rank (.dict d) r200s rOverR200 profs sel order = .ok fits) :
    fits.length = profs.length ∧ ∀ (k : Nat) (f : Fit), fits[k]? = some f →
      (∃ name, d.get "profile" = some (.str name) ∧ (name, f.fields.map Prod.fst) ∈ documentedProfiles) ∧
      (f.isConv = false → ∀ nv ∈ f.fields, nv.2 = none) ∧
      (f.isConv = true → ∀ prof, profs[k]? = some prof → Measured rOverR200 prof →
        ∀ nv ∈ f.fields, nv.2 ≠ none) := by
  obtain ⟨d', hd, hlen, -, hrow⟩ := entry_row _ _ _ _ _ _ _ _ _ horder _ h
  obtain rfl : d = d' := by simpa using hd
  refine ⟨hlen, fun k f hf => ?_⟩
  obtain ⟨i, r200, prof, hi, hr, hp, rfl⟩ := hrow k f hf
  obtain ⟨d'', rows, hd', hc, -⟩ := userFit_ok _ _ _ _ _ _ _ _ _ _ h
  obtain rfl : d = d'' := by simpa using hd'
  set m := methodOf d
  refine ⟨?_, ?_⟩
  · rw [fields_structured]
    exact profile_params d hc
  rcases row_shape s.opt hs rOverR200 m (toFitUnits c prof) r200 with e | ⟨x, hx, e⟩
  · have hn : ∀ j, (col (toOutUnits c m.profile (fitDensProf s.opt rOverR200 m (toFitUnits c prof) r200)) j).isSome
        = false := by
      intro j
      rw [col_toOutUnits, e, col, List.getElem?_map]
      cases m.profile.params[j]? <;> rfl
    constructor
    · rintro - nv hnv
      obtain ⟨j, -, hj⟩ := mem_fields _ _ _ hnv
      rw [hj]
      simpa using hn j
    · intro hconv
      have := hn 1
      change (col _ 1).isSome = true at hconv
      rw [hconv] at this
      cases this
  · have hxl : x.length = m.profile.params.length := by rw [← hx.length_eq, List.length_map]
    have h2 := params_length m.profile
    have hn : ∀ j, j < m.profile.params.length →
        (col (toOutUnits c m.profile (fitDensProf s.opt rOverR200 m (toFitUnits c prof) r200)) j).isSome =
          if j = 0 then (average ((fitData rOverR200 r200 (toFitUnits c prof)).map fun rd => rd.2)).isSome
          else true := by
      intro j hj
      rw [col_toOutUnits, e, col_rescale _ _ _ (hxl ▸ hj)]
    constructor
    · intro hconv
      change (col _ 1).isSome = false at hconv
      rw [hn 1 (by omega)] at hconv
      simp at hconv
    · rintro - prof' hp' hmeas nv hnv
      obtain rfl : prof = prof' := by simpa [hp] using hp'
      obtain ⟨j, hj, hv⟩ := mem_fields _ _ _ hnv
      have := hn j hj
      have hav : (average ((fitData rOverR200 r200 (toFitUnits c prof)).map fun rd => rd.2)).isSome = true := by
        have hne := (fitData_measured rOverR200 r200 (toFitUnits c prof)).1
          ((measured_units c rOverR200 prof).2 hmeas)
        rw [← Option.ne_none_iff_isSome, Ne, average_none]
        simpa using hne
      rw [hav, ite_self, ← hv] at this
      intro hnone
      rw [hnone] at this
      cases this

theorem check_profile (name : String) (hname : name ∈ documentedProfiles.map Prod.fst) :
    checkDensFitMethod (.dict [("profile", .str name)]) = .ok () := by
  simp only [documentedProfiles, List.map_cons, List.map_nil, List.mem_cons, List.not_mem_nil, or_false] at hname
  rcases hname with rfl | rfl | rfl | rfl <;> rfl

theorem fixed_profile (name n : String) : (methodOf [("profile", .str name)]).fixed n = none := by
  simp only [methodOf, Dict.get, List.find?]
  by_cases h : "profile" = n <;> simp [h]

theorem guess_inBox (m : Method) (hm : ∀ n, m.fixed n = none) (r : ℝ) (hr : 1 / 10000 ≤ r) :
    InBox (m.profile.params.map (bound m)) (guess m.profile r) := by
  have hr' : 1 / 10 ^ 5 ≤ r / 5 := by norm_num at *; linarith
  have hb : ∀ n, n ≠ "rho_s" → bound m n =
      (if m.profile = .einasto ∧ n = "alpha" then 1 / 10 ^ 10 else 1 / 10 ^ 5, none) := by
    intro n hn; simp [bound, hn, hm]
  have h0 : bound m "rho_s" = (1 / 10 ^ 7, none) := by simp [bound]
  unfold InBox
  cases hp : m.profile <;> simp only [Profile.params, guess, List.map_cons, List.map_nil, h0, hb, ne_eq,
    hp, String.reduceEq, not_false_eq_true, List.forall₂_cons, List.Forall₂.nil, and_true, and_false,
    reduceCtorEq, if_false, if_true, forall_const, IsEmpty.forall_iff, hr'] <;>
    norm_num

theorem residual_nil (p : Profile) : residual p [] = fun _ => 0 := by
  funext x; simp [residual]

theorem userConcentrations_ok (s : Scipy) (c : Units.Cfg ℝ) (d : Dict) (r200s rOverR200 : List ℝ)
    (profs : List (List (Option ℝ))) (sel order : List Nat) (cs : List (Option ℝ))
    (hd : checkDensFitMethod (.dict d) = .ok ()) (hlen : profs.length = sel.length)
    (h : estConcentrations s.opt c (methodOf d) r200s rOverR200 profs sel order = some cs) :
    userConcentrations s c 0 (.dict d) r200s rOverR200 profs sel order = .ok (some cs) := by
  unfold userConcentrations
  dsimp only
  rw [hd]
  simp only [Except.bind, hlen, ne_eq, not_true_eq_false, if_false, if_true, h]

theorem userFit_of_rows (s : Scipy) (c : Units.Cfg ℝ) (d : Dict) (r200s rOverR200 : List ℝ)
    (profs : List (List (Option ℝ))) (sel order : List Nat) (rows : List (List (Option ℝ)))
    (hd : checkDensFitMethod (.dict d) = .ok ()) (hlen : profs.length = sel.length)
    (h : fitDensProfs s.opt c (methodOf d) r200s rOverR200 profs sel order = some rows) :
    userFit s c 0 (.dict d) r200s rOverR200 profs sel order =
      .ok (rows.map (structured (methodOf d).profile)) := by
  unfold userFit
  dsimp only
  rw [hd]
  simp only [Except.bind, hlen, ne_eq, not_true_eq_false, if_false, if_true, h]

/-- C108 is false for profiles without any density (all NaN): the fit is flagged as converged although its
density is NaN, and the object even gets a concentration.  All the optimiser has to do is not to fail on a
constant function. -/
theorem C108_no_data_refuted (s : Scipy) (hs : Respects s.opt)
    (hconst : ∀ start bounds, InBox bounds start → s (fun _ => 0) start bounds ≠ none)
    (c : Units.Cfg ℝ) (name : String) (hname : name ∈ documentedProfiles.map Prod.fst)
    (r200s rOverR200 : List ℝ) (hr : ∀ r ∈ r200s, 1 / 10000 ≤ r)
    (profs : List (List (Option ℝ))) (sel order : List Nat)
    (hacc : profs.length = sel.length ∧ sel ≠ [] ∧ sel.Nodup ∧ ∀ i ∈ sel, i < r200s.length)
    (horder : order.Perm (List.range profs.length))
    (k : Nat) (prof : List (Option ℝ)) (hp : profs[k]? = some prof) (hnone : ∀ x ∈ prof, x = none) :
    ∃ fits cs f conc, userFit s c 0 (.dict [("profile", .str name)]) r200s rOverR200 profs sel order = .ok fits ∧
      userConcentrations s c 0 (.dict [("profile", .str name)]) r200s rOverR200 profs sel order = .ok (some cs) ∧
      fits[k]? = some f ∧ f.isConv = true ∧ f.field "rho_s" = some none ∧ cs[k]? = some (some conc) := by
  have hd := check_profile name hname
  have hfix := fixed_profile name
  generalize ([("profile", .str name)] : Dict) = d at hd hfix ⊢
  obtain ⟨rows, hrows⟩ := Option.isSome_iff_exists.1
    ((C50_accepted s.opt c (methodOf d) r200s rOverR200 profs sel order).2 hacc)
  have hfits := userFit_of_rows s c d r200s rOverR200 profs sel order rows hd hacc.1 hrows
  obtain ⟨d', hd', hlen, -, hent⟩ := entry_row _ _ _ _ _ _ _ _ _ horder _ hfits
  obtain rfl : d = d' := by simpa using hd'
  set m := methodOf d with hm
  have hk : k < profs.length := (List.getElem?_eq_some_iff.1 hp).1
  obtain ⟨f, hf⟩ : ∃ f, (rows.map (structured m.profile))[k]? = some f :=
    ⟨_, List.getElem?_eq_getElem (hlen ▸ hk)⟩
  obtain ⟨i, r200, prof', hi, hri, hp', rfl⟩ := hent k f hf
  obtain rfl : prof = prof' := by simpa [hp] using hp'
  have hr200 := hr r200 (List.mem_of_getElem? hri)
  have hdata : fitData rOverR200 r200 (toFitUnits c prof) = [] := by
    by_contra hne
    obtain ⟨rd, hm, hn⟩ := (measured_units c rOverR200 prof).1 ((fitData_measured rOverR200 r200 _).2 hne)
    exact hn (hnone _ (List.of_mem_zip hm).2)
  have hbox := guess_inBox m hfix r200 hr200
  obtain ⟨res, hres⟩ := Option.ne_none_iff_exists'.1 (hconst _ _ hbox)
  have hopt : s.opt (fun _ => 0) (guess m.profile r200) (m.profile.params.map (bound m)) = some res.x := by
    simp [Scipy.opt, hres]
  have hrow : fitDensProf s.opt rOverR200 m (toFitUnits c prof) r200 = rescale none res.x := by
    unfold fitDensProf
    simp only [hdata, List.map_nil, residual_nil, hopt]
    simp [average]
  have hx := hs _ _ _ _ hopt
  have hxl : res.x.length = m.profile.params.length := by rw [← hx.length_eq, List.length_map]
  have h2 := params_length m.profile
  -- the scale radius
  have hrs : ∃ rs, 0 < rs ∧ (rescale none res.x).getLast? = some (some rs) := by
    have hname : m.profile.params[rsColumn m.profile]? = some "r_s" := by
      cases m.profile <;> rfl
    have hlast : rsColumn m.profile + 1 = m.profile.params.length := by cases m.profile <;> rfl
    have hlt : rsColumn m.profile < res.x.length := by omega
    have hb := (List.forall₂_iff_get.1 hx).2 (rsColumn m.profile) (by simp; omega) hlt
    simp only [List.get_eq_getElem, List.getElem_map] at hb
    have hn : m.profile.params[rsColumn m.profile]'(by omega) = "r_s" :=
      (List.getElem?_eq_some_iff.1 hname).2
    rw [hn] at hb
    refine ⟨res.x[rsColumn m.profile], lt_of_lt_of_le ?_ hb.1, ?_⟩
    · simp [bound, hfix]
    · have hl : (rescale none res.x).length = res.x.length := by cases res.x <;> simp [rescale]
      rw [List.getLast?_eq_getElem?, hl, getElem?_rescale _ _ _ (by omega),
        List.getElem?_eq_getElem (by omega)]
      simp [hxl, ← hlast]
  obtain ⟨rs, hrs0, hrs⟩ := hrs
  have hest : estConcentrations s.opt c m r200s rOverR200 profs sel order =
      some (List.zipWith concentration (sel.filterMap fun i => r200s[i]?)
        (fitHelper s.opt rOverR200 m (profs.map (toFitUnits c)) (sel.filterMap fun i => r200s[i]?) order)) := by
    unfold estConcentrations
    rw [if_pos ((validCall_iff _ _ _).2 hacc)]
  refine ⟨_, _, _, r200 / rs, hfits, userConcentrations_ok s c d r200s rOverR200 profs sel order _ hd hacc.1 hest,
    hf, ?_, ?_, ?_⟩
  · show (col _ 1).isSome = true
    rw [col_toOutUnits, hrow, col_rescale _ _ _ (by omega)]
    rfl
  · rw [field_structured _ _ "rho_s" 0 (by cases m.profile <;> rfl)]
    have : (col (toOutUnits c m.profile (fitDensProf s.opt rOverR200 m (toFitUnits c prof) r200)) 0).isSome = false := by
      rw [col_toOutUnits, hrow, col_rescale _ _ _ (by omega)]
      rfl
    simpa using this
  · have hc := chosen_radii r200s sel hacc.2.2.2
    rw [C50_rows _ _ _ _ _ _ (by simp [hc.1, hacc.1]) (by simpa using horder), List.getElem?_zipWith,
      List.getElem?_zipWith, List.getElem?_map, hc.2, hi, hp]
    simp only [Option.bind_some, hri, Option.map_some]
    rw [hrow]
    simp [concentration, hrs, hrs0.ne']

/-- The optimiser with another claim of success. -/
def Scipy.claiming (s : Scipy) (success : Bool) : Scipy := fun f start bounds =>
  (s f start bounds).map fun r => { r with success := success }

/-- C108 is false also because success is never asked for: the result, including `is_conv`, is the same
whatever the optimiser claims; fits which the optimiser reports as failed are flagged as converged. -/
theorem C108_unsuccessful_refuted (success : Bool) :
    (∀ (s : Scipy) (c : Units.Cfg ℝ) (rank : Nat) (a : Arg) (r200s rOverR200 : List ℝ)
      (profs : List (List (Option ℝ))) (sel order : List Nat),
      userFit (s.claiming success) c rank a r200s rOverR200 profs sel order =
        userFit s c rank a r200s rOverR200 profs sel order) ∧
    ∃ (s : Scipy) (fits : List Fit), (∀ f start bounds r, s f start bounds = some r → r.success = false) ∧
      userFit s cfg1 0 (.dict [("profile", .str "nfw")]) [1] [1, 2, 3] [exactProf] [0] [0] = .ok fits ∧
      fits.map Fit.isConv = [true] := by
  constructor
  · intro s c rank a r200s rOverR200 profs sel order
    have : (s.claiming success).opt = s.opt := by
      funext f start bounds
      simp only [Scipy.opt, Scipy.claiming, Option.map_map]
      congr 1
    unfold userFit
    rw [this]
  · refine ⟨fun f start bounds => (oracle [96 / 13, 1] f start bounds).map fun x => ⟨x, false⟩, _, ?_,
      userFit_of_rows _ _ _ _ _ _ _ _ [[some 1, some 1]] rfl rfl ?_, ?_⟩
    · intro f start bounds r h
      obtain ⟨x, -, rfl⟩ := Option.map_eq_some_iff.1 h
      rfl
    · have h1 : Scipy.opt (fun f start bounds => (oracle [96 / 13, 1] f start bounds).map fun x => ⟨x, false⟩) =
          oracle [96 / 13, 1] := by
        funext f start bounds
        simp only [Scipy.opt, Option.map_map]
        cases oracle [96 / 13, 1] f start bounds <;> rfl
      have h2 : methodOf [("profile", .str "nfw")] = nfwMethod := by
        have hf : (methodOf [("profile", .str "nfw")]).fixed = nfwMethod.fixed := by
          funext n; rw [fixed_profile]; rfl
        have hp : (methodOf [("profile", .str "nfw")]).profile = nfwMethod.profile := rfl
        cases h : methodOf [("profile", .str "nfw")]
        rw [h] at hf hp
        simp only at hf hp
        rw [hf, hp]
      rw [h1, h2]
      exact exact_fit
    · rfl

/-! ## Named values -/

/-- The documented profiles, by name, for parameters given by name. -/
noncomputable def formula (profile : String) (v : String → ℝ) (r : ℝ) : ℝ :=
  if profile = "einasto" then v "rho_s" * Real.exp (-2 / v "alpha" * ((r / v "r_s") ^ v "alpha" - 1))
  else if profile = "alpha_beta_gamma" then
    v "rho_s" / ((r / v "r_s") ^ v "gamma" *
      (1 + (r / v "r_s") ^ v "alpha") ^ ((v "beta" - v "gamma") / v "alpha"))
  else if profile = "hernquist" then v "rho_s" / (r / v "r_s" * (1 + r / v "r_s") ^ 3)
  else v "rho_s" / (r / v "r_s" * (1 + r / v "r_s") ^ 2)

theorem density_formula (d : Dict) (name : String) (pars : List String) (hname : d.get "profile" = some (.str name))
    (hdoc : (name, pars) ∈ documentedProfiles) (v : String → ℝ) (r : ℝ) :
    (methodOf d).profile.params = pars ∧
    density (methodOf d).profile (pars.map v) r = formula name v r := by
  have e : ∀ t, d.eqStr "profile" t = decide (name = t) := by
    intro t; simp [Dict.eqStr, hname]
  simp only [documentedProfiles, List.mem_cons, Prod.mk.injEq, List.not_mem_nil, or_false] at hdoc
  rcases hdoc with ⟨rfl, rfl⟩ | ⟨rfl, rfl⟩ | ⟨rfl, rfl⟩ | ⟨rfl, rfl⟩ <;>
    simp [methodOf, e, Profile.params, density, formula, Stats.einasto, Stats.alphaBetaGamma, Stats.nfw,
      Stats.hernquist]

/-- C108, named values.  If the profile of an object is exactly one of the documented profiles, for
parameters `truth` given by name (in output units, within the bounds of the fit), and the optimiser is
perfect, then the named values of an entry flagged as converged reproduce the profile at all radii. -/
theorem C108_named_values (s : Scipy) (hs : Minimises s.opt) (c : Units.Cfg ℝ) (hh : 0 < c.h)
    (hL : 0 < c.outL) (hM : 0 < c.outM) (rank : Nat) (d : Dict)
    (hfix : ∀ v, (methodOf d).fixed "r_s" = some v → 0 < v)
    (r200s rOverR200 : List ℝ) (profs : List (List (Option ℝ))) (sel order : List Nat)
    (horder : order.Perm (List.range profs.length)) (fits : List Fit)
    (h : userFit s c rank (.dict d) r200s rOverR200 profs sel order = .ok fits)
    (k i : Nat) (r200 : ℝ) (prof : List (Option ℝ)) (f : Fit) (hprof : profs[k]? = some prof)
    (hi : sel[k]? = some i) (hr : r200s[i]? = some r200) (hf : fits[k]? = some f)
    (data : List (ℝ × ℝ)) (hdata : data = points rOverR200 (r200 * lengthRatio c) prof) (hne : data ≠ [])
    (name : String) (pars : List String) (hname : d.get "profile" = some (.str name))
    (hdoc : (name, pars) ∈ documentedProfiles) (truth : String → ℝ)
    (hbounds : Admissible (methodOf d) (meanDensity data / densityRatio c / 10 ^ 7)
      (pars.map fun n => if n = "rho_s" then truth n / densityRatio c
        else if n = "r_s" then truth n / lengthRatio c else truth n))
    (hexact : ∀ rd ∈ data, 0 < rd.1 ∧ 0 < rd.2 ∧ rd.2 = formula name truth rd.1)
    (hconv : f.isConv = true) :
    ∃ v : String → ℝ, (∀ n ∈ pars, f.field n = some (some (v n))) ∧
      ∀ rd ∈ data, formula name v rd.1 = rd.2 := by
  obtain ⟨d', rows, hd, -, -, hfit, rfl⟩ := userFit_ok _ _ _ _ _ _ _ _ _ _ h
  obtain rfl : d = d' := by simpa using hd
  rw [List.getElem?_map, Option.map_eq_some_iff] at hf
  obtain ⟨row, hrow, rfl⟩ := hf
  obtain ⟨hl0, hd0⟩ := ratios_pos c hh hL hM
  have hdf := density_formula d name pars hname hdoc
  have hparams : (methodOf d).profile.params = pars := (hdf truth 0).1
  have hinU : inUnits (densityRatio c) (lengthRatio c) (methodOf d).profile
      (pars.map fun n => if n = "rho_s" then truth n / densityRatio c
        else if n = "r_s" then truth n / lengthRatio c else truth n) = pars.map truth := by
    unfold inUnits
    rw [hparams]
    simp only [documentedProfiles, List.mem_cons, Prod.mk.injEq, List.not_mem_nil, or_false] at hdoc
    rcases hdoc with ⟨-, rfl⟩ | ⟨-, rfl⟩ | ⟨-, rfl⟩ | ⟨-, rfl⟩ <;>
      simp [hd0.ne', hl0.ne', List.modify]
  rcases C87_best_fit_partial s.opt hs c hh hL hM (methodOf d) hfix r200s rOverR200 profs sel order horder rows
    hfit k i r200 prof row hprof hi hr hrow data hdata hne
    (fun rd hrd => ⟨(hexact rd hrd).1, (hexact rd hrd).2.1⟩) with h1 | ⟨best', h1, hadm, -⟩
  · exfalso
    change (col row 1).isSome = true at hconv
    rw [h1] at hconv
    have h2 := params_length (methodOf d).profile
    rw [col, List.getElem?_map, List.getElem?_eq_getElem (by omega)] at hconv
    simp at hconv
  · set best := inUnits (densityRatio c) (lengthRatio c) (methodOf d).profile best' with hbest
    have hC := C88_exact_data s.opt hs c hh hL hM (methodOf d) hfix r200s rOverR200 profs sel order horder rows
      hfit k i r200 prof row hprof hi hr hrow data hdata hne _ hbounds
      (fun rd hrd => ⟨(hexact rd hrd).1, by rw [hinU, (hdf truth rd.1).2]; exact (hexact rd hrd).2.2⟩)
      (fun rd hrd => (hexact rd hrd).2.1) best h1
    have hlen : best.length = pars.length := by
      have : best'.length = (methodOf d).profile.params.length := by
        cases best' with
        | nil => exact hadm.elim
        | cons rho rest =>
          have := hadm.2.length_eq
          simp only [List.length_map, List.length_tail] at this
          have h2 := params_length (methodOf d).profile
          simp only [List.length_cons]
          omega
      rw [hbest, ← hparams, ← this]
      simp [inUnits]
    refine ⟨fun n => (best[pars.idxOf n]?).getD 0, ?_, ?_⟩
    · intro n hn
      have hlt := List.idxOf_lt_length_iff.2 hn
      rw [field_structured _ _ n (pars.idxOf n) (by
        rw [hparams, List.getElem?_eq_getElem hlt, List.getElem_idxOf]), h1, col, List.getElem?_map]
      simp [List.getElem?_eq_getElem (show pars.idxOf n < best.length by omega)]
    · intro rd hrd
      rw [← (hdf _ rd.1).2, ← hC rd hrd]
      congr 1
      have hnd : pars.Nodup := by
        simp only [documentedProfiles, List.mem_cons, Prod.mk.injEq, List.not_mem_nil, or_false] at hdoc
        rcases hdoc with ⟨-, rfl⟩ | ⟨-, rfl⟩ | ⟨-, rfl⟩ | ⟨-, rfl⟩ <;> decide
      apply List.ext_getElem (by simp [hlen])
      intro j h1 h2
      simp only [List.getElem_map]
      rw [List.Nodup.idxOf_getElem hnd, List.getElem?_eq_getElem (by omega)]
      rfl

/-- C108: the fit of an exact NFW profile. -/
example : ∃ (s : Scipy) (f : Fit), Minimises s.opt ∧
    userFit s cfg1 0 (.dict [("profile", .str "nfw")]) [1] [1, 2, 3] [exactProf] [0] [0] = .ok [f] ∧
    f.isConv = true ∧ Admissible (methodOf [("profile", .str "nfw")])
      (meanDensity (points [1, 2, 3] (1 * lengthRatio cfg1) exactProf) / densityRatio cfg1 / 10 ^ 7)
      (["rho_s", "r_s"].map fun n => if n = "rho_s" then (fun _ => (1 : ℝ)) n / densityRatio cfg1
        else if n = "r_s" then (fun _ => (1 : ℝ)) n / lengthRatio cfg1 else (fun _ => (1 : ℝ)) n) ∧
    ∀ rd ∈ points [1, 2, 3] (1 * lengthRatio cfg1) exactProf,
      0 < rd.1 ∧ 0 < rd.2 ∧ rd.2 = formula "nfw" (fun _ => 1) rd.1 := by
  have h1 : Scipy.opt (fun f start bounds => (oracle [96 / 13, 1] f start bounds).map fun x => ⟨x, false⟩) =
      oracle [96 / 13, 1] := by
    funext f start bounds
    simp only [Scipy.opt, Option.map_map]
    cases oracle [96 / 13, 1] f start bounds <;> rfl
  have h2 : methodOf [("profile", .str "nfw")] = nfwMethod := by
    have hf : (methodOf [("profile", .str "nfw")]).fixed = nfwMethod.fixed := by
      funext n; rw [fixed_profile]; rfl
    have hp : (methodOf [("profile", .str "nfw")]).profile = nfwMethod.profile := rfl
    cases h : methodOf [("profile", .str "nfw")]
    rw [h] at hf hp
    simp only at hf hp
    rw [hf, hp]
  refine ⟨fun f start bounds => (oracle [96 / 13, 1] f start bounds).map fun x => ⟨x, false⟩,
    structured .nfw [some 1, some 1], by rw [h1]; exact oracle_minimises _,
    userFit_of_rows _ _ _ _ _ _ _ _ [[some 1, some 1]] rfl rfl (by rw [h1, h2]; exact exact_fit), rfl, ?_, ?_⟩
  · rw [h2, cfg1_length, cfg1_density, one_mul, exact_points, exact_mean]
    simp [Admissible, nfwMethod, Profile.params, bound, InBox]
    norm_num
  · rw [cfg1_length, one_mul, exact_points]
    simp [formula]
    norm_num

/-! ## C109 -/

/-- C109 is false: a call of `fitDensProfs` which works on process 0 fails on every other process. -/
theorem C109_fit_other_processes_refuted (s : Scipy) (c : Units.Cfg ℝ) (a : Arg) (r200s rOverR200 : List ℝ)
    (profs : List (List (Option ℝ))) (sel order : List Nat) (fits : List Fit)
    (h : userFit s c 0 a r200s rOverR200 profs sel order = .ok fits) (rank : Nat) (hr : rank ≠ 0) :
    userFit s c rank a r200s rOverR200 profs sel order = .error .typeError := by
  obtain ⟨d, rows, rfl, hd, -, hf, -⟩ := userFit_ok _ _ _ _ _ _ _ _ _ _ h
  have hv := (C50_accepted s.opt c (methodOf d) r200s rOverR200 profs sel order).1 (by rw [hf]; rfl)
  unfold userFit
  dsimp only
  rw [hd]
  simp [Except.bind, hv.1, hr]

/-- C109, the part which holds: a call of `estConcentrations` which works on process 0 returns `None` on
every other process. -/
theorem C109_concentrations_partial (s : Scipy) (c : Units.Cfg ℝ) (a : Arg) (r200s rOverR200 : List ℝ)
    (profs : List (List (Option ℝ))) (sel order : List Nat) (res : Option (List (Option ℝ)))
    (h : userConcentrations s c 0 a r200s rOverR200 profs sel order = .ok res) :
    (∃ cs, res = some cs ∧ cs.length = sel.length) ∧
    ∀ rank, rank ≠ 0 → userConcentrations s c rank a r200s rOverR200 profs sel order = .ok none := by
  cases a with
  | notDict => simp [userConcentrations] at h
  | dict d =>
    unfold userConcentrations at h ⊢
    dsimp only at h ⊢
    cases hc : checkDensFitMethod (.dict d) with
    | error e => rw [hc] at h; simp [Except.bind] at h
    | ok u =>
      rw [hc] at h
      simp only [Except.bind, if_true] at h ⊢
      split at h
      · simp at h
      · rename_i hlen
        cases hf : estConcentrations s.opt c (methodOf d) r200s rOverR200 profs sel order with
        | none => rw [hf] at h; simp at h
        | some cs =>
          rw [hf] at h
          refine ⟨⟨cs, (Except.ok.inj h).symm, ?_⟩, fun rank hr => by rw [if_neg hlen, if_neg hr]⟩
          obtain ⟨rows, hrows⟩ := Option.isSome_iff_exists.1
            ((C50_accepted s.opt c (methodOf d) r200s rOverR200 profs sel order).2
              ((validCall_iff _ _ _).1 (by
                by_contra hv
                unfold estConcentrations at hf
                rw [if_neg hv] at hf
                cases hf)))
          have hacc := (C50_accepted s.opt c (methodOf d) r200s rOverR200 profs sel order).1 (by rw [hrows]; rfl)
          unfold estConcentrations at hf
          rw [if_pos ((validCall_iff _ _ _).2 hacc)] at hf
          have := congrArg List.length (Option.some.inj hf)
          rw [← this, List.length_zipWith, (chosen_radii r200s sel hacc.2.2.2).1]
          unfold fitHelper place
          rw [length_foldl_set, List.length_replicate, List.length_map, hacc.1, Nat.min_self]

/-! ## Concrete cases -/

open Classical in
/-- An optimiser which returns where it started, if that is inside the bounds. -/
noncomputable def stay : Scipy := fun _ start bounds => if InBox bounds start then some ⟨start, true⟩ else none

theorem stay_respects : Respects stay.opt := by
  intro f start bounds x h
  simp only [Scipy.opt, stay] at h
  split at h
  · simp only [Option.map_some, Option.some.injEq] at h; exact h ▸ ‹_›
  · simp at h

/-- C108: an Einasto fit of two objects; the second one has no density at any radius and gets a
concentration. -/
example : ∃ fits cs f conc, userFit stay cfg1 0 (.dict [("profile", .str "einasto")]) [1, 2, 3] [1, 2]
      [[some 1, some 2], [none, none]] [2, 0] [1, 0] = .ok fits ∧
    userConcentrations stay cfg1 0 (.dict [("profile", .str "einasto")]) [1, 2, 3] [1, 2]
      [[some 1, some 2], [none, none]] [2, 0] [1, 0] = .ok (some cs) ∧
    fits[1]? = some f ∧ f.isConv = true ∧ f.field "rho_s" = some none ∧ cs[1]? = some (some conc) :=
  C108_no_data_refuted stay stay_respects (by intro start bounds h; simp [stay, h]) cfg1 "einasto"
    (by simp [documentedProfiles]) [1, 2, 3] [1, 2] (by intro r hr; fin_cases hr <;> norm_num) _ [2, 0] [1, 0]
    (by simp) (by decide) 1 [none, none] rfl (by simp)

/-- C108: the first of these objects is flagged, and all its parameters are numbers. -/
example : ∃ fits f, userFit stay cfg1 0 (.dict [("profile", .str "einasto")]) [1, 2, 3] [1, 2]
      [[some 1, some 2], [none, none]] [2, 0] [1, 0] = .ok fits ∧ fits[0]? = some f ∧
      (f.isConv = true → ∀ nv ∈ f.fields, nv.2 ≠ none) := by
  obtain ⟨rows, hrows⟩ := Option.isSome_iff_exists.1
    ((C50_accepted stay.opt cfg1 (methodOf [("profile", .str "einasto")]) [1, 2, 3] [1, 2]
      [[some 1, some 2], [none, none]] [2, 0] [1, 0]).2 (by simp))
  have h := userFit_of_rows stay cfg1 [("profile", .str "einasto")] [1, 2, 3] [1, 2]
    [[some 1, some 2], [none, none]] [2, 0] [1, 0] rows rfl rfl hrows
  have hp := C108_flag_partial stay stay_respects cfg1 0 _ _ _ _ _ _ (by decide) _ h
  refine ⟨_, _, h, List.getElem?_eq_getElem (by rw [hp.1]; simp), fun hc => ?_⟩
  exact (hp.2 0 _ (List.getElem?_eq_getElem (by rw [hp.1]; simp))).2.2 hc _ rfl ⟨(1, some 1), by simp, by simp⟩

/-- C109: this call fails on process 3. -/
example : userFit stay cfg1 3 (.dict [("profile", .str "einasto")]) [1, 2, 3] [1, 2]
      [[some 1, some 2], [none, none]] [2, 0] [1, 0] = .error .typeError := by
  obtain ⟨rows, hrows⟩ := Option.isSome_iff_exists.1
    ((C50_accepted stay.opt cfg1 (methodOf [("profile", .str "einasto")]) [1, 2, 3] [1, 2]
      [[some 1, some 2], [none, none]] [2, 0] [1, 0]).2 (by simp))
  exact C109_fit_other_processes_refuted stay cfg1 _ _ _ _ _ _ _
    (userFit_of_rows stay cfg1 [("profile", .str "einasto")] [1, 2, 3] [1, 2]
      [[some 1, some 2], [none, none]] [2, 0] [1, 0] rows rfl rfl hrows) 3 (by decide)

/-- C109: concentrations of these objects on process 3. -/
example : userConcentrations stay cfg1 3 (.dict [("profile", .str "einasto")]) [1, 2, 3] [1, 2]
      [[some 1, some 2], [none, none]] [2, 0] [1, 0] = .ok none := by
  obtain ⟨fits, cs, f, conc, -, h, -⟩ := C108_no_data_refuted stay stay_respects
    (by intro start bounds h; simp [stay, h]) cfg1 "einasto" (by simp [documentedProfiles]) [1, 2, 3] [1, 2]
    (by intro r hr; fin_cases hr <;> norm_num) [[some 1, some 2], [none, none]] [2, 0] [1, 0]
    (by simp) (by decide) 1 [none, none] rfl (by simp)
  exact (C109_concentrations_partial stay cfg1 _ _ _ _ _ _ _ h).2 3 (by decide)

end Verif.Fits
