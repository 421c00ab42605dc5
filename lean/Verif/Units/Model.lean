import Mathlib.Algebra.Order.Field.Basic
import Mathlib.Data.List.Basic
import Mathlib.Data.Int.Log

/-!
# Model of the unit handling (`cosmic_profiles/common/config.py`) and of the unit conversions in
density estimation and fitting (`cosmic_profiles/common/cosmic_base_class.pyx`)

Numbers are elements of an arbitrary linearly ordered field; the rounding of the factors to
`np.float32` is not modelled.
-/

namespace Verif.Units

variable {K : Type} [Field K] [LinearOrder K] [IsStrictOrderedRing K]

/-- The global variables of config.py:58-71 (without the two cache settings). -/
structure Cfg (K : Type) where
  inL : K
  inM : K
  inV : K
  h : K
  outL : K
  outM : K
  outV : K

/-- `length_in_cm_d`, config.py:12. -/
def lengthTable (h : K) : List (String × K) :=
  [("kpc", 3085678 * 10 ^ 15), ("Mpc", 3085678 * 10 ^ 18), ("Gpc", 3085678 * 10 ^ 21),
   ("kpc/h", 3085678 * 10 ^ 15 / h), ("Mpc/h", 3085678 * 10 ^ 18 / h),
   ("Gpc/h", 3085678 * 10 ^ 21 / h), ("pc", 3085678 * 10 ^ 12), ("pc/h", 3085678 * 10 ^ 12 / h)]

/-- `mass_in_g_d`, config.py:13. -/
def massTable (h : K) : List (String × K) :=
  [("Msun", 1989 * 10 ^ 30), ("E+10Msun", 1989 * 10 ^ 40), ("Msun/h", 1989 * 10 ^ 30 / h),
   ("E+10Msun/h", 1989 * 10 ^ 40 / h)]

/-- `velocity_in_cm_per_s_d`, config.py:14. -/
def velTable : List (String × K) := [("km/s", 10 ^ 5)]

/-- Exceptions: `assert` in the setters of config.py, and a missing key of the tables of config.py:12-14. -/
inductive Err | assertionError | keyError
  deriving DecidableEq, Repr

/-- Dictionary access `d[key]`. -/
def dictGet (d : List (String × K)) (key : String) : Except Err K :=
  match d.lookup key with
  | some v => .ok v
  | none => .error .keyError

/-- A unit argument: a name or a number. -/
inductive UnitArg (K : Type) | name (s : String) | value (x : K)

/-- Lines of the form
`if type(x) == str: assert x in d.keys(); x = d[x]` (config.py:107-115, 138-146). -/
def resolve (d : List (String × K)) : UnitArg K → Except Err K
  | .value x => .ok x
  | .name s => match d.lookup s with
    | some v => .ok v
    | none => .error .assertionError

/-- `updateInUnitSystem`, config.py:88-118: outcome and configuration afterwards.  The new
`little_h` is stored before anything is checked. -/
def updateIn (c : Cfg K) (l m v : UnitArg K) (h : K) : Except Err Unit × Cfg K :=
  let c := { c with h := h }
  match resolve (lengthTable h) l with
  | .error e => (.error e, c)
  | .ok l =>
    match resolve (massTable h) m with
    | .error e => (.error e, c)
    | .ok m =>
      match resolve velTable v with
      | .error e => (.error e, c)
      | .ok v => (.ok (), { c with inL := l, inM := m, inV := v })

/-- `updateOutUnitSystem`, config.py:120-150. -/
def updateOut (c : Cfg K) (l m v : UnitArg K) (h : K) : Except Err Unit × Cfg K :=
  let c := { c with h := h }
  match resolve (lengthTable h) l with
  | .error e => (.error e, c)
  | .ok l =>
    match resolve (massTable h) m with
    | .error e => (.error e, c)
    | .ok m =>
      match resolve velTable v with
      | .error e => (.error e, c)
      | .ok v => (.ok (), { c with outL := l, outM := m, outV := v })

/-- `LengthInternalToOut`, config.py:152-160. -/
def lengthInternalToOut (c : Cfg K) (x : K) : Except Err K :=
  match dictGet (lengthTable c.h) "Mpc/h" with
  | .ok u => .ok (x * (u / c.outL))
  | .error e => .error e

/-- `MassInternalToOut`, config.py:162-170. -/
def massInternalToOut (c : Cfg K) (x : K) : Except Err K :=
  match dictGet (massTable c.h) "E+10M_sun/h" with
  | .ok u => .ok (x * (u / c.outM))
  | .error e => .error e

/-- `VelInternalToOut`, config.py:172-180. -/
def velInternalToOut (c : Cfg K) (x : K) : Except Err K :=
  match dictGet velTable "km/s" with
  | .ok u => .ok (x * (u / c.outV))
  | .error e => .error e

/-- `LengthInToInternal`, config.py:182-190. -/
def lengthInToInternal (c : Cfg K) (x : K) : Except Err K :=
  match dictGet (lengthTable c.h) "Mpc/h" with
  | .ok u => .ok (x * (c.inL / u))
  | .error e => .error e

/-- `MassInToInternal`, config.py:192-200. -/
def massInToInternal (c : Cfg K) (x : K) : Except Err K :=
  match dictGet (massTable c.h) "E+10M_sun/h" with
  | .ok u => .ok (x * (c.inM / u))
  | .error e => .error e

/-- `VelInToInternal`, config.py:202-210. -/
def velInToInternal (c : Cfg K) (x : K) : Except Err K :=
  match dictGet velTable "km/s" with
  | .ok u => .ok (x * (c.inV / u))
  | .error e => .error e

/-- A plot label: the name of a unit, or the number `d.dd · 10 ^ e` (`m` are the three digits) in front of a base unit. -/
inductive Label | name (s : String) | multiple (m e : ℤ) (base : String)
  deriving DecidableEq

/-- `"{:.2e}".format(x)` for a positive number: its three digits and the exponent.  `near` is the nearest integer, either one in
case of a tie. -/
def fmt2 [FloorRing K] (near : K → ℤ) (x : K) : ℤ × ℤ :=
  let e := Int.log 10 x
  let m := near (x / 10 ^ (e - 2))
  if m = 1000 then (100, e + 1) else (m, e)

/-- `np.argmin(abs(values - x))` together with the name: first minimiser. -/
def argminName (x : K) : List (String × K) → Option (String × K)
  | [] => none
  | (s, v) :: l =>
    match argminName x l with
    | none => some (s, v)
    | some (s', v') => if |v - x| ≤ |v' - x| then some (s, v) else some (s', v')

/-- One of the three cases of `LMVLabel`, config.py:218-229. -/
def label [FloorRing K] (near : K → ℤ) (d : List (String × K)) (base : String) (x : K) : Option Label :=
  if x ∈ d.map Prod.snd then (argminName x d).map fun p => .name p.1
  else (d.lookup base).map fun b => .multiple (fmt2 near (x / b)).1 (fmt2 near (x / b)).2 base

/-- `LMVLabel`, config.py:212-230. -/
def lmvLabel [FloorRing K] (near : K → ℤ) (c : Cfg K) : Option Label × Option Label × Option Label :=
  (label near (lengthTable c.h) "kpc" c.outL, label near (massTable c.h) "Msun" c.outM, label near velTable "km/s" c.outV)

/-- `getLMVInternal` restricted to length and mass, config.py:17-19. -/
def internalLM (c : Cfg K) : Except Err (K × K) :=
  match dictGet (lengthTable c.h) "Mpc/h", dictGet (massTable c.h) "E+10Msun/h" with
  | .ok l, .ok m => .ok (l, m)
  | .error e, _ => .error e
  | _, .error e => .error e

/-- `MASS_UNIT`, cosmic_base_class.pyx:63. -/
def massUnit : K := 10 ^ 10

/-- Unit conversion at the end of density estimation: `prof` is the profile computed by the
binning/kernel routine in internal units (10^10 Msun/h per (Mpc/h)^3); cosmic_base_class.pyx:826,
864, 888 (`*MASS_UNIT`) and 949-953. -/
def estOut (c : Cfg K) (prof : List K) : Except Err (List K) :=
  match internalLM c with
  | .error e => .error e
  | .ok (l, m) =>
    let mCurr := m / massUnit
    .ok (prof.map fun p => p * massUnit * (mCurr / c.outM) * (l / c.outL) ^ (-3 : Int))

/-- Conversion of user-supplied profiles before fitting, cosmic_base_class.pyx:1024-1028 (same at
1070-1074, 1114-1118). -/
def fitIn (c : Cfg K) (prof : List K) : Except Err (List K) :=
  match internalLM c with
  | .error e => .error e
  | .ok (l, m) =>
    let mTarget := m / massUnit
    .ok (prof.map fun p => p * (c.outM / mTarget) * (c.outL / l) ^ (-3 : Int))

/-- Column of the scale radius, cosmic_base_class.pyx:1036-1041. -/
def rsColumn (profile : String) : Nat :=
  if profile = "einasto" then 2 else if profile = "alpha_beta_gamma" then 4 else 1

/-- Conversion of the fitted parameters of one object, cosmic_base_class.pyx:1033-1042. -/
def fitOut (c : Cfg K) (profile : String) (best : List K) : Except Err (List K) :=
  match internalLM c with
  | .error e => .error e
  | .ok (l, m) =>
    let mTarget := m / massUnit
    let best := best.modify 0 fun x => x * (mTarget / c.outM) * (l / c.outL) ^ (-3 : Int)
    .ok (best.modify (rsColumn profile) fun x => x * (l / c.outL))

/-- `_fitDensProfsBase` for one object, with the optimiser `fit` (scipy) as an arbitrary function
of profile, normalised radii and R200; cosmic_base_class.pyx:1001-1045. -/
def fitDensProf (fit : List K → List K → K → List K) (c : Cfg K) (profile : String)
    (dens radii : List K) (r200 : K) : Except Err (List K) :=
  match fitIn c dens with
  | .error e => .error e
  | .ok d => fitOut c profile (fit d radii r200)

/-- `_estConcentrationsBase` for one object: R200 over the last fitted parameter,
cosmic_base_class.pyx:785-804 and 1047-1081. -/
def estConcentration (fit : List K → List K → K → List K) (c : Cfg K)
    (dens radii : List K) (r200 : K) : Except Err K :=
  match fitIn c dens with
  | .error e => .error e
  | .ok d => match (fit d radii r200).getLast? with
    | some rs => .ok (r200 / rs)
    | none => .error .keyError

end Verif.Units
