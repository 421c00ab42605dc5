import Verif.Stats.Model
import Verif.Units.Model
import Verif.Catalogue.Model
import Mathlib.Algebra.Order.Monoid.WithTop

/-!
# Model of the validation of settings and of density profile fitting

* `checkDensFitMethod`, `checkKatzConfig` (`cosmic_profiles/common/python_routines.py`)
* `getModelParsDict`, `toMinimize`, `fitDensProf`, `fitDensProfHelper`
  (`cosmic_profiles/dens_profs/dens_profs_tools.py`)
* `_fitDensProfsBase`, `_estConcentrationsBase` (`cosmic_profiles/common/cosmic_base_class.pyx`)

The scipy optimiser is an arbitrary function; what is assumed of it is stated in the theorems.  Exact
arithmetic instead of floating point; NaN is `none`.
-/

namespace Verif.Fits

/-! ## Validation -/

/-- A Python value, as far as the checks distinguish values. -/
inductive Val where
  | str (s : String)
  | bool (b : Bool)
  | num (x : ℚ)
  | seq (xs : List ℚ)
  | other

/-- A dictionary with string keys (`method`, `katz_config`). -/
abbrev Dict := List (String × Val)

/-- The argument `method`: a dictionary or something else. -/
inductive Arg where
  | dict (d : Dict)
  | notDict

/-- Exceptions raised by the checks and dictionary accesses of `fitDensProfs` and its helpers. -/
inductive Err | assertionError | keyError | valueError | typeError
  deriving DecidableEq, Repr

/-- `d[key]`. -/
def Dict.get (d : Dict) (key : String) : Option Val := (d.find? fun kv => kv.1 = key).map fun kv => kv.2

/-- `d[key] == text`; false for values which are not strings. -/
def Dict.eqStr (d : Dict) (key text : String) : Bool :=
  match d.get key with
  | some (.str s) => s = text
  | _ => false

/-- `method.keys() <= allowed`. -/
def Dict.keysIn (d : Dict) (allowed : List String) : Bool := d.all fun kv => allowed.contains kv.1

/-- `assert`. -/
def assert (b : Bool) : Except Err Unit := if b then .ok () else .error .assertionError

/-- python_routines.py:686-694: allowed fields. -/
def checkFields (d : Dict) : Except Err Unit :=
  if d.eqStr "profile" "einasto" then
    assert (d.keysIn ["profile", "rho_s", "alpha", "r_s", "min_method"])
  else if d.eqStr "profile" "alpha_beta_gamma" then
    assert (d.keysIn ["profile", "rho_s", "alpha", "beta", "gamma", "r_s", "min_method"])
  else assert (d.keysIn ["profile", "rho_s", "r_s", "min_method"])

/-- python_routines.py:695-696: minimisation method. -/
def checkMinMethod (d : Dict) : Except Err Unit :=
  if (d.get "min_method").isSome then
    assert (d.eqStr "min_method" "Nelder-Mead" || d.eqStr "min_method" "L-BFGS-B" ||
      d.eqStr "min_method" "TNC" || d.eqStr "min_method" "SLSQP" || d.eqStr "min_method" "Powell" ||
      d.eqStr "min_method" "trust-constr")
  else .ok ()

/-- `checkDensFitMethod`, python_routines.py:678-696. -/
def checkDensFitMethod : Arg → Except Err Unit
  | .notDict => .error .assertionError
  | .dict d =>
    (assert (d.get "profile").isSome).bind fun _ =>
    (assert (d.eqStr "profile" "einasto" || d.eqStr "profile" "alpha_beta_gamma" ||
      d.eqStr "profile" "hernquist" || d.eqStr "profile" "nfw")).bind fun _ =>
    (checkFields d).bind fun _ => checkMinMethod d

/-- `np.float64(x)` for a scalar setting: strings which are not numbers and other objects are
rejected (strings which spell a number, which numpy accepts, are not modelled). -/
def toFloat : Val → Except Err ℚ
  | .num x => .ok x
  | .bool b => .ok (if b then 1 else 0)
  | .str _ => .error .valueError
  | .seq _ => .error .typeError
  | .other => .error .typeError

/-- `np.int32(x)`: truncation towards zero.  Overflow is not modelled. -/
def toInt (v : Val) : Except Err Int := (toFloat v).map fun x => if 0 ≤ x then ⌊x⌋ else ⌈x⌉

/-- The accepted settings. -/
structure Katz where
  radii : List ℚ
  itTol : ℚ
  itWall : Int
  itMin : Int
  reduced : Bool
  shellBased : Bool

/-- `katz_config[key]`. -/
def Dict.lookup (d : Dict) (key : String) : Except Err Val :=
  match d.get key with
  | some v => .ok v
  | none => .error .keyError

/-- `assert type(x) == bool`. -/
def asBool : Val → Except Err Bool
  | .bool b => .ok b
  | _ => .error .assertionError

/-- `assert hasattr(x, "__len__")` followed by `np.float64(x)` (strings have a length but are no
numbers). -/
def asRadii : Val → Except Err (List ℚ)
  | .seq xs => .ok xs
  | .str _ => .error .valueError
  | _ => .error .assertionError

/-- `checkKatzConfig`, python_routines.py:656-676.  Simplification: which error is reported when several
settings are wrong may differ (conversions and assertions are done setting by setting here). -/
def checkKatzConfig (d : Dict) : Except Err Katz :=
  (d.lookup "ROverR200").bind fun r => (d.lookup "IT_TOL").bind fun tol =>
  (d.lookup "IT_WALL").bind fun wall => (d.lookup "IT_MIN").bind fun mn =>
  (d.lookup "REDUCED").bind fun red => (d.lookup "SHELL_BASED").bind fun sh =>
  (asBool sh).bind fun sh => (asBool red).bind fun red => (asRadii r).bind fun r =>
  (toFloat tol).bind fun tol => (toInt wall).bind fun wall => (toInt mn).map fun mn =>
    ⟨r, tol, wall, mn, red, sh⟩

/-! ## Fitting -/

/-- The four profile models. -/
inductive Profile | einasto | abg | nfw | hernquist
  deriving DecidableEq, Repr

/-- Names of the model parameters in the order of the arrays, dens_profs_tools.py:215-225. -/
def Profile.params : Profile → List String
  | .einasto => ["rho_s", "alpha", "r_s"]
  | .abg => ["rho_s", "alpha", "beta", "gamma", "r_s"]
  | _ => ["rho_s", "r_s"]

/-- A checked `method`: profile and the parameters given by the user.  The minimisation method only
selects the optimiser, which is arbitrary here. -/
structure Method where
  profile : Profile
  fixed : String → Option ℝ

/-- `prof_models[profile](r, getModelParsDict(pars, profile))`, dens_profs_tools.py:215-228.  Arrays of
another length, which cannot occur, give 0. -/
noncomputable def density (p : Profile) (pars : List ℝ) (r : ℝ) : ℝ :=
  match p, pars with
  | .einasto, [rho, alpha, rs] => Stats.einasto rho alpha rs r
  | .abg, [rho, alpha, beta, gamma, rs] => Stats.alphaBetaGamma rho alpha beta gamma rs r
  | .nfw, [rho, rs] => Stats.nfw rho rs r
  | .hernquist, [rho, rs] => Stats.hernquist rho rs r
  | _, _ => 0

open Classical in
/-- `toMinimize`, dens_profs_tools.py:227-230, for data `(radius, density)`.  `⊤` = infinity or NaN: the
logarithm of a vanishing density is minus infinity, that of a negative one is NaN.  A vanishing or
undefined model density (radius or scale radius 0) is not modelled. -/
noncomputable def residual (p : Profile) (data : List (ℝ × ℝ)) (pars : List ℝ) : WithTop ℝ :=
  if ∀ rd ∈ data, 0 < rd.2 then
    ((data.map fun rd => (Real.log rd.2 - Real.log (density p pars rd.1)) ^ 2 / data.length).sum : ℝ)
  else ⊤

/-- A pair of bounds; `none` = no upper bound. -/
abbrev Bound := ℝ × Option ℝ

/-- The bounds of one parameter, dens_profs_tools.py:272-311: the density is never fixed. -/
noncomputable def bound (m : Method) (name : String) : Bound :=
  if name = "rho_s" then (1 / 10 ^ 7, none)
  else match m.fixed name with
    | some v => (v, some v)
    | none => (if m.profile = .einasto ∧ name = "alpha" then 1 / 10 ^ 10 else 1 / 10 ^ 5, none)

/-- `iguess`, dens_profs_tools.py:284, 309, 319. -/
noncomputable def guess (p : Profile) (r200 : ℝ) : List ℝ :=
  match p with
  | .einasto => [1 / 10, 18 / 100, r200 / 5]
  | .abg => [1 / 10, 1, 1, 1, r200 / 5]
  | _ => [1 / 10, r200 / 5]

/-- `scipy.optimize.minimize`: function, initial guess, bounds; `none` = `ValueError`. -/
abbrev Optimiser := (List ℝ → WithTop ℝ) → List ℝ → List Bound → Option (List ℝ)

/-- `np.average(median)`; `none` = NaN for an empty array. -/
noncomputable def average (l : List ℝ) : Option ℝ := if l = [] then none else some (l.sum / l.length)

/-- The data left after discarding NaN, dens_profs_tools.py:264-267. -/
noncomputable def fitData (rOverR200 : List ℝ) (r200 : ℝ) (prof : List (Option ℝ)) : List (ℝ × ℝ) :=
  (rOverR200.zip prof).filterMap fun rp => rp.2.map fun d => (rp.1 * r200, d)

/-- `best_fit[0] *= np.average(median)`. -/
noncomputable def rescale (avg : Option ℝ) : List ℝ → List (Option ℝ)
  | [] => []
  | rho :: rest => (avg.map fun a => rho * a) :: rest.map some

/-- `fitDensProf`, dens_profs_tools.py:232-323: one row of best-fit parameters, all NaN if the optimiser
raises `ValueError`.  If no density is left the rescaled data are empty as well. -/
noncomputable def fitDensProf (opt : Optimiser) (rOverR200 : List ℝ) (m : Method) (prof : List (Option ℝ))
    (r200 : ℝ) : List (Option ℝ) :=
  let data := fitData rOverR200 r200 prof
  let avg := average (data.map fun rd => rd.2)
  let scaled := data.map fun rd => (rd.1, rd.2 / avg.getD 1)
  match opt (residual m.profile scaled) (guess m.profile r200) (m.profile.params.map (bound m)) with
  | some x => rescale avg x
  | none => m.profile.params.map fun _ => none

/-- Last part of `fitDensProfHelper`, dens_profs_tools.py:344-360: the results of the workers are written
to the rows named in the results. -/
def place {α : Type} (zero : α) (n : Nat) (results : List (α × Nat)) : List α :=
  results.foldl (fun rows result => rows.set result.2 result.1) (List.replicate n zero)

/-- `fitDensProfHelper`, dens_profs_tools.py:325-361.  `order` is the order in which the results of
the worker processes are collected. -/
noncomputable def fitHelper (opt : Optimiser) (rOverR200 : List ℝ) (m : Method)
    (profs : List (List (Option ℝ))) (r200s : List ℝ) (order : List Nat) : List (List (Option ℝ)) :=
  place (m.profile.params.map fun _ => some 0) profs.length
    (order.filterMap fun i => (profs[i]?).bind fun prof => (r200s[i]?).map fun r200 =>
      (fitDensProf opt rOverR200 m prof r200, i))

/-- Change of one column, NaN staying NaN. -/
def modifyCol (k : Nat) (f : ℝ → ℝ) (row : List (Option ℝ)) : List (Option ℝ) :=
  row.modify k fun x => x.map f

/-- Index of the scale radius, cosmic_base_class.pyx:1036-1041. -/
def rsColumn : Profile → Nat
  | .einasto => 2
  | .abg => 4
  | _ => 1

/-- Unit of length and mass used in fits in cgs: Mpc/h and Msun/h, cosmic_base_class.pyx:1024-1025. -/
noncomputable def fitUnits (c : Units.Cfg ℝ) : ℝ × ℝ :=
  (3085678 * 10 ^ 18 / c.h, 1989 * 10 ^ 40 / c.h / 10 ^ 10)

/-- Profiles from output units to the units of the fit, cosmic_base_class.pyx:1026-1028. -/
noncomputable def toFitUnits (c : Units.Cfg ℝ) (prof : List (Option ℝ)) : List (Option ℝ) :=
  prof.map fun d => d.map fun d =>
    d * (c.outM / (fitUnits c).2) * (c.outL / (fitUnits c).1) ^ (-3 : Int)

/-- Best-fit parameters to output units, cosmic_base_class.pyx:1033-1042. -/
noncomputable def toOutUnits (c : Units.Cfg ℝ) (p : Profile) (row : List (Option ℝ)) : List (Option ℝ) :=
  modifyCol (rsColumn p) (fun x => x * ((fitUnits c).1 / c.outL))
    (modifyCol 0 (fun x => x * ((fitUnits c).2 / c.outM) * ((fitUnits c).1 / c.outL) ^ (-3 : Int)) row)

/-- Checks of the number of profiles and of the selection, cosmic_base_class.pyx:1020-1031. -/
def validCall (profs : List (List (Option ℝ))) (sel : List Nat) (nb : Nat) : Bool :=
  profs.length = sel.length ∧ Catalogue.isValidSelection (sel.map fun n : Nat => (n : ℚ)) nb = .ok true

/-- `fitDensProfs`: dens_profs_classes.pyx:162-178 and cosmic_base_class.pyx:1001-1045, for a selection
given as a list of object numbers; `none` = `ValueError`. -/
noncomputable def fitDensProfs (opt : Optimiser) (c : Units.Cfg ℝ) (m : Method) (r200s : List ℝ)
    (rOverR200 : List ℝ) (profs : List (List (Option ℝ))) (sel : List Nat) (order : List Nat) :
    Option (List (List (Option ℝ))) :=
  if validCall profs sel r200s.length then
    some ((fitHelper opt rOverR200 m (profs.map (toFitUnits c)) (sel.filterMap fun i => r200s[i]?)
      order).map (toOutUnits c m.profile))
  else none

/-- R200 over the last fitted parameter, cosmic_base_class.pyx:785-804.  `none` = NaN (also infinity, for a
vanishing scale radius). -/
noncomputable def concentration (r200 : ℝ) (row : List (Option ℝ)) : Option ℝ :=
  row.getLast?.join.bind fun x => if x = 0 then none else some (r200 / x)

/-- `estConcentrations`: dens_profs_classes.pyx:196-213, cosmic_base_class.pyx:1047-1081; outer
`none` = `ValueError`. -/
noncomputable def estConcentrations (opt : Optimiser) (c : Units.Cfg ℝ) (m : Method) (r200s : List ℝ)
    (rOverR200 : List ℝ) (profs : List (List (Option ℝ))) (sel : List Nat) (order : List Nat) :
    Option (List (Option ℝ)) :=
  if validCall profs sel r200s.length then
    some (List.zipWith concentration (sel.filterMap fun i => r200s[i]?)
      (fitHelper opt rOverR200 m (profs.map (toFitUnits c)) (sel.filterMap fun i => r200s[i]?) order))
  else none

end Verif.Fits
