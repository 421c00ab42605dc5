import Verif.Api.Model

/-!
# Rounded arithmetic: model

The other models compute with real numbers.  Here parts of the code are modelled once more with every operation followed by
rounding, as floating-point hardware does it.

* getters and constructor: `cosmic_profiles/shape_profs/shape_profs_classes.pyx:510-515`,
  `cosmic_profiles/dens_profs/dens_profs_classes.pyx:60-118`, `cosmic_profiles/common/config.py:10-19`
* converters: `cosmic_profiles/common/config.py:152-213`
* total mass: `cosmic_profiles/dens_profs/dens_profs_algos.pyx:44-46`
* centre of mass, recentring: `cosmic_profiles/common/python_routines.py:530-568`
* binning in spherical shells: `cosmic_profiles/dens_profs/dens_profs_algos.pyx:82`,
  `cosmic_profiles/cython_helpers/helper_class.pyx:204-241`

Simplified: no overflow and no underflow (exponents are unbounded); numbers written in the code are taken as they are (their
conversion to binary is not a rounding step).
-/

namespace Verif.Round

/-- Floating-point arithmetic with unbounded exponents: an operation yields the rounded exact result.  Rounding is monotone, does
not change its own results, commutes with doubling and negation, and has relative error at most `u`. -/
structure Rounding where
  rnd : ℝ → ℝ
  u : ℝ
  u_nonneg : 0 ≤ u
  u_lt : u < 1
  mono : Monotone rnd
  idem : ∀ x, rnd (rnd x) = rnd x
  double : ∀ x, rnd (2 * x) = 2 * rnd x
  odd : ∀ x, rnd (-x) = -rnd x
  err : ∀ x, |rnd x - x| ≤ u * |x|

namespace Rounding

variable (R : Rounding)

/-- Rounded operations. -/
noncomputable def add (x y : ℝ) : ℝ := R.rnd (x + y)
/-- Difference, rounded once. -/
noncomputable def sub (x y : ℝ) : ℝ := R.rnd (x - y)
/-- Product, rounded once. -/
noncomputable def mul (x y : ℝ) : ℝ := R.rnd (x * y)
/-- Quotient, rounded once. -/
noncomputable def div (x y : ℝ) : ℝ := R.rnd (x / y)

/-- `x ** n`, rounded once. -/
noncomputable def pow (x : ℝ) (n : Nat) : ℝ := R.rnd (x ^ n)

/-- A number that can be stored. -/
def Stored (x : ℝ) : Prop := R.rnd x = x

end Rounding

variable (R : Rounding)

open Verif.Units (Cfg)
open Verif (Vec)

/-! ## Unit conversion -/

/-- `length_in_cm_d['Mpc/h']`, config.py:12. -/
noncomputable def lengthInternal (h : ℝ) : ℝ := R.div (3085678 * 10 ^ 18) h

/-- `mass_in_g_d['E+10Msun/h']`, config.py:13. -/
noncomputable def massInternal (h : ℝ) : ℝ := R.div (1989 * 10 ^ 40) h

/-- Lengths in the constructor, shape_profs_classes.pyx:512, 514-515. -/
noncomputable def lengthIn (c : Cfg ℝ) (x : ℝ) : ℝ := R.mul x (R.div c.inL (lengthInternal R c.h))

/-- Masses in the constructor, shape_profs_classes.pyx:511, 515. -/
noncomputable def massIn (c : Cfg ℝ) (x : ℝ) : ℝ := R.mul x (R.div c.inM (massInternal R c.h))

/-- Lengths in the getters, dens_profs_classes.pyx:66-67, 91-93, 114-117. -/
noncomputable def lengthOut (c : Cfg ℝ) (x : ℝ) : ℝ := R.mul x (R.div (lengthInternal R c.h) c.outL)

/-- Masses in the getters, dens_profs_classes.pyx:92-93, 115-118. -/
noncomputable def massOut (c : Cfg ℝ) (x : ℝ) : ℝ := R.mul x (R.div (massInternal R c.h) c.outM)

/-- `LengthInToInternal`, config.py:182-190; `S` is the rounding of `np.float32`. -/
noncomputable def lengthInToInternal (S : Rounding) (c : Cfg ℝ) (x : ℝ) : ℝ :=
  R.mul x (S.rnd (R.div c.inL (lengthInternal R c.h)))

/-- `LengthInternalToOut`, config.py:152-160. -/
noncomputable def lengthInternalToOut (S : Rounding) (c : Cfg ℝ) (x : ℝ) : ℝ :=
  R.mul x (S.rnd (R.div (lengthInternal R c.h) c.outL))

/-! ## Sums -/

/-- `m[p] = m[p] + masses[...]` from 0, dens_profs_algos.pyx:44-46. -/
noncomputable def totalMass (masses : List ℝ) : ℝ := masses.foldl R.add 0

/-- The possible results of `np.sum`: numpy adds in blocks and several numbers at a time, so any order and any bracketing. -/
inductive Sums : List ℝ → ℝ → Prop
  | nil : Sums [] 0
  | single (x : ℝ) : Sums [x] x
  | join (l l' : List ℝ) (hl : l ≠ []) (hl' : l' ≠ []) (s s' : ℝ) (h : Sums l s) (h' : Sums l' s') : Sums (l ++ l') (R.add s s')
  | perm (l l' : List ℝ) (s : ℝ) (h : Sums l s) (hp : l.Perm l') : Sums l' s

/-! ## Centre of mass -/

/-- One coordinate of `calcCoM`: possible results, python_routines.py:540-547.  `chosen` are the coordinates of the particles
drawn, `ps` coordinates and masses of all particles. -/
inductive CoM (chosen : List ℝ) (ps : List (ℝ × ℝ)) : ℝ → Prop
  | mk (s : ℝ) (hs : Sums R chosen s) (total : ℝ) (ht : Sums R (ps.map Prod.snd) total) (t : ℝ)
      (hsum : Sums R (ps.map fun p => R.div (R.mul p.2 (R.sub p.1 (R.div s chosen.length))) total) t) :
      CoM chosen ps (R.add t (R.div s chosen.length))

/-- One coordinate of `recentreObject`, python_routines.py:559-564. -/
noncomputable def recentre (L x : ℝ) : ℝ :=
  let y := if L ≤ x then R.sub x L else x
  if y < 0 then R.add y L else y

/-! ## Binning in spherical shells -/

/-- `bin_edges`, dens_profs_algos.pyx:82. -/
noncomputable def edges (radii : List ℝ) : List ℝ :=
  10⁻¹ ^ 8 :: (List.zipWith (fun a b => R.div (R.add a b) 2) radii radii.tail ++ radii.getLast?.toList)

/-- The left-hand side of the test, helper_class.pyx:232. -/
noncomputable def distSq (center x : Vec ℝ) : ℝ :=
  R.add (R.add (R.pow (R.sub (center 0) (x 0)) 2) (R.pow (R.sub (center 1) (x 1)) 2)) (R.pow (R.sub (center 2) (x 2)) 2)

/-- The test whether a particle at squared distance `d` is between the edges `e` and `e'`, helper_class.pyx:232. -/
def InShell (r200 d e e' : ℝ) : Prop := d < R.pow (R.mul e' r200) 2 ∧ d ≥ R.pow (R.mul e r200) 2

/-- `4/3*pi*((bin_edges[r_i+1]*r_200)**3-(bin_edges[r_i]*r_200)**3)`, helper_class.pyx:240; `pi` is C's constant. -/
noncomputable def volume (pi r200 e e' : ℝ) : ℝ :=
  R.mul (R.mul (R.div 4 3) pi) (R.sub (R.pow (R.mul e' r200) 3) (R.pow (R.mul e r200) 3))

open Classical in
/-- One entry of the profile, helper_class.pyx:225-240: the masses of the particles which pass the test, each divided by the
volume, added one after the other to 0. -/
noncomputable def density (pi r200 e e' : ℝ) (center : Vec ℝ) (ps : List (Vec ℝ × ℝ)) : ℝ :=
  ((ps.filter fun p => InShell R r200 (distSq R center p.1) e e').map fun p => R.div p.2 (volume R pi r200 e e')).foldl R.add 0

open Classical in
/-- One entry of the enclosed mass profile, helper_class.pyx:336-348. -/
noncomputable def enclosedMass (r200 r : ℝ) (center : Vec ℝ) (ps : List (Vec ℝ × ℝ)) : ℝ :=
  ((ps.filter fun p => distSq R center p.1 < R.pow (R.mul r r200) 2).map Prod.snd).foldl R.add 0

end Verif.Round
