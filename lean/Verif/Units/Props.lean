import Verif.Units.Model
import Mathlib.Tactic.FieldSimp
import Mathlib.Tactic.Ring
import Mathlib.Tactic.Positivity
import Mathlib.Tactic.NormNum
import Mathlib.Data.Rat.Cast.Order
import Mathlib.Data.Rat.Floor
import Mathlib.Tactic.Linarith
import Mathlib.Algebra.Order.Field.Power

/-! # Properties of the unit handling (C11 - C15, C72, C73) -/

set_option linter.unusedSectionVars false

namespace Verif.Units

variable {K : Type} [Field K] [LinearOrder K] [IsStrictOrderedRing K]

/-! ## Specification -/

/-- One Mpc/h in cm. -/
def mpch (h : K) : K := 3085678 * 10 ^ 18 / h

/-- 10^10 Msun/h in g. -/
def msunh10 (h : K) : K := 1989 * 10 ^ 40 / h

/-- All units and the Hubble constant are positive. -/
structure Cfg.Pos (c : Cfg K) : Prop where
  inL : 0 < c.inL
  inM : 0 < c.inM
  inV : 0 < c.inV
  h : 0 < c.h
  outL : 0 < c.outL
  outM : 0 < c.outM
  outV : 0 < c.outV

/-- The configuration after importing the package (config.py:232). -/
def defaultCfg : Cfg ℚ :=
  ⟨3085678 * 10 ^ 15, 1989 * 10 ^ 40, 10 ^ 5, 6774 / 10000, 3085678 * 10 ^ 18, 1989 * 10 ^ 30, 10 ^ 5⟩

theorem defaultCfg_pos : defaultCfg.Pos := by
  constructor <;> norm_num [defaultCfg]

/-! ## Evaluation lemmas -/

theorem lookup_mpch (h : K) : (lengthTable h).lookup "Mpc/h" = some (mpch h) := by
  simp [lengthTable, List.lookup, mpch]

theorem lookup_msunh (h : K) : (massTable h).lookup "E+10Msun/h" = some (msunh10 h) := by
  simp [massTable, List.lookup, msunh10]

theorem mpch_pos {h : K} (hh : 0 < h) : 0 < mpch h := by unfold mpch; positivity

theorem msunh10_pos {h : K} (hh : 0 < h) : 0 < msunh10 h := by unfold msunh10; positivity

theorem lengthInToInternal_eq (c : Cfg K) (x : K) :
    lengthInToInternal c x = .ok (x * (c.inL / mpch c.h)) := by
  simp [lengthInToInternal, dictGet, lookup_mpch]

theorem lengthInternalToOut_eq (c : Cfg K) (x : K) :
    lengthInternalToOut c x = .ok (x * (mpch c.h / c.outL)) := by
  simp [lengthInternalToOut, dictGet, lookup_mpch]

theorem velInToInternal_eq (c : Cfg K) (x : K) :
    velInToInternal c x = .ok (x * (c.inV / 10 ^ 5)) := by
  simp [velInToInternal, dictGet, velTable]

theorem velInternalToOut_eq (c : Cfg K) (x : K) :
    velInternalToOut c x = .ok (x * (10 ^ 5 / c.outV)) := by
  simp [velInternalToOut, dictGet, velTable]

theorem internalLM_eq (c : Cfg K) : internalLM c = .ok (mpch c.h, msunh10 c.h) := by
  simp [internalLM, dictGet, lookup_mpch, lookup_msunh]

/-! ## C11 -/

/-- **C11** Length conversions: multiplication by a positive factor; the way from input via internal
to output units is multiplication by the ratio of the units (in particular the identity if the
units coincide, in both directions), whatever the Hubble constant. -/
theorem C11_length (c : Cfg K) (hc : c.Pos) :
    (∃ f, 0 < f ∧ ∀ x, lengthInToInternal c x = .ok (x * f)) ∧
    (∃ f, 0 < f ∧ ∀ x, lengthInternalToOut c x = .ok (x * f)) ∧
    (∀ x, (lengthInToInternal c x).bind (lengthInternalToOut c) = .ok (x * c.inL / c.outL)) ∧
    (c.inL = c.outL → ∀ x,
      (lengthInToInternal c x).bind (lengthInternalToOut c) = .ok x ∧
      (lengthInternalToOut c x).bind (lengthInToInternal c) = .ok x) := by
  have h1 := mpch_pos hc.h
  have h2 := hc.inL
  have h3 := hc.outL
  have h1' := h1.ne'
  have h2' := h2.ne'
  have h3' := h3.ne'
  refine ⟨⟨_, div_pos h2 h1, lengthInToInternal_eq c⟩, ⟨_, div_pos h1 h3, lengthInternalToOut_eq c⟩,
    fun x => ?_, fun e x => ⟨?_, ?_⟩⟩ <;>
    simp only [lengthInToInternal_eq, lengthInternalToOut_eq, Except.bind, Except.ok.injEq]
  · field_simp
  · rw [e]; field_simp
  · rw [e]; field_simp

/-- **C11** Velocity conversions. -/
theorem C11_velocity (c : Cfg K) (hc : c.Pos) :
    (∃ f, 0 < f ∧ ∀ x, velInToInternal c x = .ok (x * f)) ∧
    (∃ f, 0 < f ∧ ∀ x, velInternalToOut c x = .ok (x * f)) ∧
    (∀ x, (velInToInternal c x).bind (velInternalToOut c) = .ok (x * c.inV / c.outV)) ∧
    (c.inV = c.outV → ∀ x,
      (velInToInternal c x).bind (velInternalToOut c) = .ok x ∧
      (velInternalToOut c x).bind (velInToInternal c) = .ok x) := by
  have h2 := hc.inV
  have h3 := hc.outV
  have h1 : (0 : K) < 10 ^ 5 := by positivity
  have h2' := h2.ne'
  have h3' := h3.ne'
  refine ⟨⟨_, div_pos h2 h1, velInToInternal_eq c⟩, ⟨_, div_pos h1 h3, velInternalToOut_eq c⟩,
    fun x => ?_, fun e x => ⟨?_, ?_⟩⟩ <;>
    simp only [velInToInternal_eq, velInternalToOut_eq, Except.bind, Except.ok.injEq]
  · field_simp
  · rw [e]; field_simp
  · rw [e]; field_simp

example : ∃ c : Cfg ℚ, c.Pos ∧ (lengthInToInternal c 3).bind (lengthInternalToOut c) = .ok (3 / 1000) := by
  refine ⟨defaultCfg, defaultCfg_pos, ?_⟩
  rw [(C11_length defaultCfg defaultCfg_pos).2.2.1]
  norm_num [defaultCfg]

/-! ## C12 -/

/-- The documented length units, in cm. -/
def docLength (h : K) (s : String) : Option K :=
  if s = "pc" then some (3085678 * 10 ^ 12)
  else if s = "kpc" then some (3085678 * 10 ^ 15)
  else if s = "Mpc" then some (3085678 * 10 ^ 18)
  else if s = "Gpc" then some (3085678 * 10 ^ 21)
  else if s = "pc/h" then some (3085678 * 10 ^ 12 / h)
  else if s = "kpc/h" then some (3085678 * 10 ^ 15 / h)
  else if s = "Mpc/h" then some (3085678 * 10 ^ 18 / h)
  else if s = "Gpc/h" then some (3085678 * 10 ^ 21 / h)
  else none

/-- The documented mass units, in g. -/
def docMass (h : K) (s : String) : Option K :=
  if s = "Msun" then some (1989 * 10 ^ 30)
  else if s = "E+10Msun" then some (1989 * 10 ^ 40)
  else if s = "Msun/h" then some (1989 * 10 ^ 30 / h)
  else if s = "E+10Msun/h" then some (1989 * 10 ^ 40 / h)
  else none

/-- The documented velocity unit, in cm/s. -/
def docVel (s : String) : Option K := if s = "km/s" then some (10 ^ 5) else none

/-- The number a unit argument stands for; `none` for an unknown name. -/
def meaning (doc : String → Option K) : UnitArg K → Option K
  | .name s => doc s
  | .value x => some x

theorem lookup_cons_if (k s : String) (v : K) (l : List (String × K)) :
    ((k, v) :: l).lookup s = if s = k then some v else l.lookup s := by
  by_cases h : s = k
  · simp [List.lookup, h]
  · have : (s == k) = false := by simpa using h
    simp [List.lookup, h, this]

theorem lookup_length (h : K) (s : String) : (lengthTable h).lookup s = docLength h s := by
  unfold lengthTable docLength
  simp only [lookup_cons_if, List.lookup_nil]
  by_cases h1 : s = "kpc" <;> by_cases h2 : s = "Mpc" <;> by_cases h3 : s = "Gpc" <;>
    by_cases h4 : s = "kpc/h" <;> by_cases h5 : s = "Mpc/h" <;> by_cases h6 : s = "Gpc/h" <;>
    by_cases h7 : s = "pc" <;> by_cases h8 : s = "pc/h" <;> simp_all

theorem lookup_mass (h : K) (s : String) : (massTable h).lookup s = docMass h s := by
  unfold massTable docMass
  simp only [lookup_cons_if, List.lookup_nil]

theorem lookup_vel (s : String) : (velTable (K := K)).lookup s = docVel s := by
  unfold velTable docVel
  simp only [lookup_cons_if, List.lookup_nil]

theorem resolve_eq (d : List (String × K)) (doc : String → Option K)
    (hd : ∀ s, d.lookup s = doc s) (u : UnitArg K) :
    resolve d u = match meaning doc u with
      | some v => .ok v
      | none => .error .assertionError := by
  cases u with
  | value x => rfl
  | name s => simp only [resolve, meaning, hd]; rfl

/-- **C12** For both update functions: if all three arguments are numbers or documented names, the
call succeeds and stores exactly the documented numbers (with the supplied Hubble constant) and the
Hubble constant, and nothing else; if any name is unknown the call is rejected. -/
theorem C12_unit_names (c : Cfg K) (l m v : UnitArg K) (h : K) :
    (∀ l' m' v', meaning (docLength h) l = some l' → meaning (docMass h) m = some m' →
      meaning docVel v = some v' →
      updateIn c l m v h = (.ok (), { c with inL := l', inM := m', inV := v', h := h }) ∧
      updateOut c l m v h = (.ok (), { c with outL := l', outM := m', outV := v', h := h })) ∧
    (meaning (docLength h) l = none ∨ meaning (docMass h) m = none ∨ meaning (docVel (K := K)) v = none →
      (updateIn c l m v h).1 = .error .assertionError ∧
      (updateOut c l m v h).1 = .error .assertionError) := by
  simp only [updateIn, updateOut, resolve_eq _ _ (lookup_length h), resolve_eq _ _ (lookup_mass h),
    resolve_eq _ _ lookup_vel]
  cases meaning (docLength h) l <;> cases meaning (docMass h) m <;>
    cases meaning (docVel (K := K)) v <;> simp

example : updateIn defaultCfg (.name "kpc/h") (.value 7) (.name "km/s") (7 / 10) =
    (.ok (), { defaultCfg with inL := 3085678 * 10 ^ 15 / (7 / 10), inM := 7, inV := 10 ^ 5, h := 7 / 10 }) :=
  ((C12_unit_names defaultCfg _ _ _ _).1 _ _ _ rfl rfl rfl).1

/-! ## C13 -/

/-- **C13 refuted** A rejected call changes later conversions: the Hubble constant was replaced. -/
theorem C13_rejection_changes_state_refuted :
    ∃ (c : Cfg ℚ) (l m v : UnitArg ℚ) (h x : ℚ), c.Pos ∧ 0 < h ∧
      (updateIn c l m v h).1 = .error .assertionError ∧
      lengthInToInternal (updateIn c l m v h).2 x ≠ lengthInToInternal c x ∧
      (updateOut c l m v h).1 = .error .assertionError ∧
      lengthInternalToOut (updateOut c l m v h).2 x ≠ lengthInternalToOut c x := by
  refine ⟨defaultCfg, .name "parsec", .name "Msun", .name "km/s", 1, 1, defaultCfg_pos, by norm_num,
    ?_, ?_, ?_, ?_⟩
  · exact ((C12_unit_names defaultCfg _ _ _ 1).2 (Or.inl rfl)).1
  · have : (updateIn defaultCfg (.name "parsec") (.name "Msun") (.name "km/s") 1).2
        = { defaultCfg with h := 1 } := rfl
    rw [this, lengthInToInternal_eq, lengthInToInternal_eq]
    norm_num [defaultCfg, mpch]
  · exact ((C12_unit_names defaultCfg _ _ _ 1).2 (Or.inl rfl)).2
  · have : (updateOut defaultCfg (.name "parsec") (.name "Msun") (.name "km/s") 1).2
        = { defaultCfg with h := 1 } := rfl
    rw [this, lengthInternalToOut_eq, lengthInternalToOut_eq]
    norm_num [defaultCfg, mpch]

/-- **C13** (part) What a rejected call does leave unchanged: everything except the Hubble constant;
so if the Hubble constant passed is the current one, the configuration does not change, and
conversions of lengths from input to output units never change.
Missing: single conversions when the rejected call carried a different Hubble constant, see
`C13_rejection_changes_state_refuted`. -/
theorem C13_rejection_partial (c : Cfg K) (hc : c.Pos) (l m v : UnitArg K) (h : K) (hh : 0 < h) :
    (∀ e, (updateIn c l m v h).1 = .error e →
      (updateIn c l m v h).2 = { c with h := h } ∧ (h = c.h → (updateIn c l m v h).2 = c) ∧
      ∀ x, (lengthInToInternal (updateIn c l m v h).2 x).bind (lengthInternalToOut (updateIn c l m v h).2)
        = (lengthInToInternal c x).bind (lengthInternalToOut c)) ∧
    (∀ e, (updateOut c l m v h).1 = .error e →
      (updateOut c l m v h).2 = { c with h := h } ∧ (h = c.h → (updateOut c l m v h).2 = c) ∧
      ∀ x, (lengthInToInternal (updateOut c l m v h).2 x).bind (lengthInternalToOut (updateOut c l m v h).2)
        = (lengthInToInternal c x).bind (lengthInternalToOut c)) := by
  have hpos : (Cfg.mk c.inL c.inM c.inV h c.outL c.outM c.outV).Pos :=
    ⟨hc.inL, hc.inM, hc.inV, hh, hc.outL, hc.outM, hc.outV⟩
  have hcomp : ∀ x, (lengthInToInternal { c with h := h } x).bind (lengthInternalToOut { c with h := h })
        = (lengthInToInternal c x).bind (lengthInternalToOut c) := by
    intro x
    rw [(C11_length c hc).2.2.1, (C11_length _ hpos).2.2.1]
  have h1 : ∀ e, (updateIn c l m v h).1 = .error e → (updateIn c l m v h).2 = { c with h := h } := by
    intro e
    unfold updateIn
    cases resolve (lengthTable h) l <;> simp only [implies_true]
    cases resolve (massTable h) m <;> simp only [implies_true]
    cases resolve (velTable (K := K)) v <;> simp
  have h2 : ∀ e, (updateOut c l m v h).1 = .error e → (updateOut c l m v h).2 = { c with h := h } := by
    intro e
    unfold updateOut
    cases resolve (lengthTable h) l <;> simp only [implies_true]
    cases resolve (massTable h) m <;> simp only [implies_true]
    cases resolve (velTable (K := K)) v <;> simp
  refine ⟨fun e he => ?_, fun e he => ?_⟩
  · rw [h1 e he]; exact ⟨rfl, fun e => by rw [e], hcomp⟩
  · rw [h2 e he]; exact ⟨rfl, fun e => by rw [e], hcomp⟩

/-! ## C14 -/

/-- **C14 refuted** Both mass conversions fail with KeyError in every configuration, for every mass:
they look up a name ('E+10M_sun/h') which is not in the table. -/
theorem C14_mass_conversions_refuted (c : Cfg K) (x : K) :
    massInToInternal c x = .error .keyError ∧ massInternalToOut c x = .error .keyError := by
  have : (massTable c.h).lookup "E+10M_sun/h" = none := by
    rw [lookup_mass]; rfl
  simp [massInToInternal, massInternalToOut, dictGet, this]

example : massInToInternal defaultCfg 1 = .error .keyError := (C14_mass_conversions_refuted _ _).1

/-! ## C15 -/

/-- **C15** Reported densities are physical: a reported value times the output unit of density (in
g/cm^3) is the internal value times the internal unit of density (in g/cm^3). -/
theorem C15_reported_density (c : Cfg K) (hc : c.Pos) (prof : List K) :
    ∃ out, estOut c prof = .ok out ∧
      List.Forall₂ (fun p q => q * (c.outM / c.outL ^ 3) = p * (msunh10 c.h / mpch c.h ^ 3)) prof out := by
  have h1 := (mpch_pos hc.h).ne'
  have h2 := hc.outL.ne'
  have h3 := hc.outM.ne'
  have h4 : (massUnit : K) ≠ 0 := by unfold massUnit; positivity
  refine ⟨_, by simp only [estOut, internalLM_eq]; rfl, ?_⟩
  rw [List.forall₂_map_right_iff, List.forall₂_same]
  intro p _
  rw [zpow_neg, div_zpow]
  norm_cast
  field_simp

/-- **C15** Round trip: what the fit receives from a profile reported in output units is exactly the
profile that was estimated (in Msun/h per (Mpc/h)^3). -/
theorem C15_round_trip (c : Cfg K) (hc : c.Pos) (prof : List K) :
    (estOut c prof).bind (fitIn c) = .ok (prof.map (· * massUnit)) := by
  have h1 := (mpch_pos hc.h).ne'
  have h2 := hc.outL.ne'
  have h3 := hc.outM.ne'
  have h4 : (massUnit : K) ≠ 0 := by unfold massUnit; positivity
  have h5 := (msunh10_pos hc.h).ne'
  simp only [estOut, internalLM_eq, fitIn, Except.bind, List.map_map, Except.ok.injEq]
  apply List.map_congr_left
  intro p _
  simp only [Function.comp_apply, zpow_neg, div_zpow]
  norm_cast
  field_simp

/-- Number of parameters of a profile model (dens_profs_tools.py:215-225). -/
def nPars (profile : String) : Nat :=
  if profile = "einasto" then 3 else if profile = "alpha_beta_gamma" then 5 else 2

/-- **C15** Fitted parameters are reported physically: first parameter (density) and last parameter
(scale radius, number `nPars profile - 1`) in output units, the others unchanged. -/
theorem C15_reported_parameters (c : Cfg K) (hc : c.Pos) (profile : String) (best : List K) :
    ∃ out, fitOut c profile best = .ok out ∧ out.length = best.length ∧
      ∀ i p q, best[i]? = some p → out[i]? = some q →
        if i = 0 then q * (c.outM / c.outL ^ 3) = p * (msunh10 c.h / massUnit / mpch c.h ^ 3)
        else if i = nPars profile - 1 then q * c.outL = p * mpch c.h
        else q = p := by
  have h1 := (mpch_pos hc.h).ne'
  have h2 := hc.outL.ne'
  have h3 := hc.outM.ne'
  have h4 : (massUnit : K) ≠ 0 := by unfold massUnit; positivity
  have hcol : rsColumn profile = nPars profile - 1 ∧ 0 < rsColumn profile := by
    unfold rsColumn nPars
    split
    · simp
    · split <;> simp
  refine ⟨_, by simp only [fitOut, internalLM_eq]; rfl, by simp only [List.length_modify], ?_⟩
  intro i p q hp hq
  rw [List.getElem?_modify, List.getElem?_modify, hp] at hq
  by_cases hi : i = 0
  · subst hi
    have : rsColumn profile ≠ 0 := by omega
    simp [this] at hq
    subst hq
    simp only [if_true]
    field_simp
  · by_cases hj : i = nPars profile - 1
    · have h0 : (0 : Nat) ≠ i := fun h => hi h.symm
      have hne : rsColumn profile = i := by omega
      simp only [hne, h0, if_true, if_false] at hq
      have hq : p * (mpch c.h / c.outL) = q := by simpa using hq
      subst hq
      rw [if_neg hi, if_pos hj]
      field_simp
    · have hne : rsColumn profile ≠ i := by omega
      have h0 : (0 : Nat) ≠ i := fun h => hi h.symm
      simp [hne, h0] at hq
      rw [if_neg hi, if_neg hj]
      exact hq.symm

/-- **C15** Concentrations do not depend on the output units: for any optimiser, estimating profiles
and then concentrations in any two configurations gives the same result. -/
theorem C15_concentration_unit_free (fit : List K → List K → K → List K) (c c' : Cfg K) (hc : c.Pos)
    (hc' : c'.Pos) (prof radii : List K) (r200 : K) :
    ((estOut c prof).bind fun d => estConcentration fit c d radii r200) =
      ((estOut c' prof).bind fun d => estConcentration fit c' d radii r200) := by
  have key : ∀ c : Cfg K, c.Pos → ((estOut c prof).bind fun d => estConcentration fit c d radii r200) =
      match (fit (prof.map (· * massUnit)) radii r200).getLast? with
        | some rs => .ok (r200 / rs)
        | none => .error .keyError := by
    intro c hc
    have := C15_round_trip c hc prof
    obtain ⟨out, ho, -⟩ := C15_reported_density c hc prof
    rw [ho] at this ⊢
    simp only [Except.bind] at this ⊢
    simp only [estConcentration, this]
    rfl
  rw [key c hc, key c' hc']

example : ∃ c : Cfg ℚ, c.Pos ∧ c.h = defaultCfg.h ∧ c.outL ≠ defaultCfg.outL :=
  ⟨{ defaultCfg with outL := 1 }, ⟨defaultCfg_pos.inL, defaultCfg_pos.inM, defaultCfg_pos.inV,
    defaultCfg_pos.h, one_pos, defaultCfg_pos.outM, defaultCfg_pos.outV⟩, rfl, by norm_num [defaultCfg]⟩

/-! ## C72 plot labels -/

/-- The number `d.dd · 10 ^ e` of three digits `m`. -/
def decimal3 (m e : ℤ) : K := m / 100 * 10 ^ e

/-- The size of the unit a label denotes. -/
def labelValue (doc : String → Option K) : Label → Option K
  | .name s => doc s
  | .multiple m e b => (doc b).map (decimal3 m e * ·)

/-- The label denotes the unit `x` as well as three digits permit: it is the name of a unit of exactly this size, or the base unit is
multiplied by the number of three digits which is nearest. -/
def Denotes (doc : String → Option K) (base : String) (x : K) : Label → Prop
  | .name s => doc s = some x
  | .multiple m e b => b = base ∧ 100 ≤ m ∧ m ≤ 999 ∧ ∃ v, doc b = some v ∧ |decimal3 m e * v - x| ≤ x / 200 ∧
      ∀ m' e' : ℤ, 100 ≤ m' → m' ≤ 999 → |decimal3 m e * v - x| ≤ |decimal3 m' e' * v - x|

/-- Rounding to the nearest integer. -/
def Nearest (near : K → ℤ) : Prop := ∀ x, |(near x : K) - x| ≤ 1 / 2

theorem argminName_mem (x : K) (d : List (String × K)) (p : String × K) (h : argminName x d = some p) :
    p ∈ d ∧ ∀ q ∈ d, |p.2 - x| ≤ |q.2 - x| := by
  induction d generalizing p with
  | nil => simp [argminName] at h
  | cons a d ih =>
    obtain ⟨s, v⟩ := a
    simp only [argminName] at h
    cases hr : argminName x d with
    | none =>
      have hd : d = [] := by
        cases d with
        | nil => rfl
        | cons b d =>
          obtain ⟨s', v'⟩ := b
          simp only [argminName] at hr
          split at hr
          · simp at hr
          · split at hr <;> simp at hr
      rw [hr] at h
      simp at h
      subst h
      simp [hd]
    | some r =>
      rw [hr] at h
      obtain ⟨i1, i2⟩ := ih r hr
      by_cases hle : |v - x| ≤ |r.2 - x|
      · simp only [hle, if_true, Option.some.injEq] at h
        subst h
        refine ⟨by simp, fun q hq => ?_⟩
        rcases List.mem_cons.1 hq with rfl | hq
        · exact le_rfl
        · exact hle.trans (i2 q hq)
      · simp only [hle, if_false, Option.some.injEq] at h
        subst h
        refine ⟨by simp [i1], fun q hq => ?_⟩
        rcases List.mem_cons.1 hq with rfl | hq
        · exact (not_le.1 hle).le
        · exact i2 q hq

theorem nearest_le {near : K → ℤ} (hn : Nearest near) (x : K) (n : ℤ) : |(near x : K) - x| ≤ |(n : K) - x| := by
  by_cases h : near x = n
  · rw [h]
  · have h1 : (1 : K) ≤ |(near x : K) - n| := by
      have : (1 : ℤ) ≤ |near x - n| := Int.one_le_abs (sub_ne_zero.2 h)
      have h2 : ((1 : ℤ) : K) ≤ ((|near x - n| : ℤ) : K) := Int.cast_le.2 this
      simpa using h2
    have h2 := abs_sub_le (near x : K) x n
    have h3 := hn x
    rw [abs_sub_comm x] at h2
    linarith

variable [FloorRing K]

theorem fmt2_spec {near : K → ℤ} (hn : Nearest near) {x : K} (hx : 0 < x) :
    100 ≤ (fmt2 near x).1 ∧ (fmt2 near x).1 ≤ 999 ∧ |decimal3 (fmt2 near x).1 (fmt2 near x).2 - x| ≤ x / 200 ∧
    ∀ m e : ℤ, 100 ≤ m → m ≤ 999 → |decimal3 (fmt2 near x).1 (fmt2 near x).2 - x| ≤ |decimal3 m e - x| := by
  have l1 : (10 : K) ^ Int.log 10 x ≤ x := by simpa using Int.zpow_log_le_self (b := 10) (by norm_num) hx
  have l2 : x < (10 : K) ^ (Int.log 10 x + 1) := by simpa using Int.lt_zpow_succ_log_self (b := 10) (by norm_num) x
  obtain ⟨e, he⟩ : ∃ e, Int.log 10 x = e := ⟨_, rfl⟩
  rw [he] at l1 l2
  have hp : (0 : K) < 10 ^ (e - 2) := zpow_pos (by norm_num) _
  obtain ⟨P, hP⟩ : ∃ P : K, (10 : K) ^ (e - 2) = P := ⟨_, rfl⟩
  rw [hP] at hp
  have e0 : (10 : K) ^ e = 100 * P := by
    rw [← hP, zpow_sub₀ (by norm_num)]; norm_num; ring
  have e1 : (10 : K) ^ (e + 1) = 1000 * P := by
    rw [zpow_add₀ (by norm_num), e0]; norm_num; ring
  rw [e0] at l1
  rw [e1] at l2
  obtain ⟨t, ht⟩ : ∃ t, x / P = t := ⟨_, rfl⟩
  have hxt : x = t * P := by rw [← ht]; field_simp
  have t1 : 100 ≤ t := by rw [← ht, le_div_iff₀ hp]; exact l1
  have t2 : t < 1000 := by rw [← ht, div_lt_iff₀ hp]; exact l2
  obtain ⟨n, hnn⟩ : ∃ n, near t = n := ⟨_, rfl⟩
  have n0 := hn t
  rw [hnn, abs_le] at n0
  have n1 : 100 ≤ n := by
    have : (99 : K) < n := by linarith [n0.1]
    have : (99 : ℤ) < n := by exact_mod_cast this
    omega
  have n2 : n ≤ 1000 := by
    have : (n : K) < 1001 := by linarith [n0.2]
    have : n < 1001 := by exact_mod_cast this
    omega
  have val : decimal3 (fmt2 near x).1 (fmt2 near x).2 = (n : K) * P := by
    unfold fmt2 decimal3
    simp only [he, hP, ht, hnn]
    split
    · rename_i h
      rw [h, e1]; norm_num
    · simp only
      rw [e0]; ring
  have key : ∀ z : ℤ, |(n : K) * P - x| ≤ |(z : K) * P - x| := by
    intro z
    rw [hxt, ← sub_mul, ← sub_mul, abs_mul, abs_mul]
    have := nearest_le hn t z
    rw [hnn] at this
    exact mul_le_mul_of_nonneg_right this (abs_nonneg _)
  refine ⟨?_, ?_, ?_, ?_⟩
  · unfold fmt2
    simp only [he, hP, ht, hnn]
    split
    · norm_num
    · exact n1
  · unfold fmt2
    simp only [he, hP, ht, hnn]
    split
    · norm_num
    · simp only; omega
  · rw [val, hxt, ← sub_mul, abs_mul, abs_of_pos hp, mul_div_right_comm]
    refine mul_le_mul_of_nonneg_right ?_ hp.le
    rw [abs_le]
    constructor <;> linarith [n0.1, n0.2]
  · intro m e' hm1 hm2
    rw [val]
    by_cases hle : e ≤ e'
    · obtain ⟨k, hk⟩ := Int.eq_ofNat_of_zero_le (sub_nonneg.2 hle)
      have : decimal3 m e' = ((m * 10 ^ k : ℤ) : K) * P := by
        unfold decimal3
        have : e' = e + k := by omega
        rw [this, zpow_add₀ (by norm_num), e0]
        push_cast
        rw [zpow_natCast]
        ring
      rw [this]
      exact key _
    · have h1 : decimal3 m e' ≤ 100 * P := by
        unfold decimal3
        have h2 : (10 : K) ^ e' ≤ 10 ^ (e - 1) := zpow_le_zpow_right₀ (by norm_num) (by omega)
        have h3 : (10 : K) ^ (e - 1) = 10 * P := by
          rw [show e - 1 = e + (-1) by ring, zpow_add₀ (by norm_num), e0]; norm_num; ring
        rw [h3] at h2
        have h4 : (m : K) / 100 ≤ 10 := by
          rw [div_le_iff₀ (by norm_num)]
          have : (m : K) ≤ 999 := by exact_mod_cast hm2
          linarith
        calc (m : K) / 100 * 10 ^ e' ≤ 10 * (10 * P) :=
              mul_le_mul h4 h2 (by positivity) (by norm_num)
          _ = 100 * P := by ring
      have h5 := key 100
      refine h5.trans ?_
      rw [abs_sub_comm, abs_sub_comm _ x]
      push_cast
      rw [abs_of_nonneg (by linarith), abs_of_nonneg (by linarith)]
      linarith

theorem label_value {near : K → ℤ} (hn : Nearest near) (d : List (String × K)) (doc : String → Option K) (base : String) (b x : K)
    (hd : ∀ p ∈ d, doc p.1 = some p.2) (hb : doc base = some b) (hlb : d.lookup base = some b)
    (hb0 : 0 < b) (hx0 : 0 < x) : ∃ L, label near d base x = some L ∧ Denotes doc base x L := by
  unfold label
  by_cases hx : x ∈ d.map Prod.snd
  · rw [if_pos hx]
    obtain ⟨p, hp, rfl⟩ := List.mem_map.1 hx
    cases hr : argminName p.2 d with
    | none =>
      cases d with
      | nil => simp at hp
      | cons a d =>
        simp only [argminName] at hr
        split at hr
        · simp at hr
        · split at hr <;> simp at hr
    | some r =>
      obtain ⟨h1, h2⟩ := argminName_mem _ _ _ hr
      have := h2 p hp
      rw [sub_self, abs_zero] at this
      have h3 : r.2 = p.2 := sub_eq_zero.1 (abs_eq_zero.1 (le_antisymm this (abs_nonneg _)))
      exact ⟨_, rfl, by simp [Denotes, hd r h1, h3]⟩
  · rw [if_neg hx, hlb]
    obtain ⟨s1, s2, s3, s4⟩ := fmt2_spec hn (div_pos hx0 hb0)
    have scale : ∀ y : K, |y * b - x| = |y - x / b| * b := by
      intro y
      rw [← abs_of_pos hb0, ← abs_mul, abs_of_pos hb0]
      congr 1
      field_simp
    refine ⟨_, rfl, rfl, s1, s2, b, hb, ?_, ?_⟩
    · rw [scale]
      calc _ ≤ x / b / 200 * b := mul_le_mul_of_nonneg_right s3 hb0.le
        _ = x / 200 := by field_simp
    · intro m' e' h1 h2
      rw [scale, scale]
      exact mul_le_mul_of_nonneg_right (s4 m' e' h1 h2) hb0.le

/-- **C72** Plot labels, up to the format of numbers: whatever the configuration, each label is the name of a unit of exactly the size of
the output unit in use, or says which multiple of kpc, Msun or km/s it is, as the nearest number of three digits.  Missing: the
multiple is not exact (`C72_exact_refuted`) unless three digits suffice (`C72_three_digits`). -/
theorem C72_labels_partial (near : K → ℤ) (hn : Nearest near) (c : Cfg K) (hc : c.Pos) :
    ∃ l m v, lmvLabel near c = (some l, some m, some v) ∧
    Denotes (docLength c.h) "kpc" c.outL l ∧ Denotes (docMass c.h) "Msun" c.outM m ∧ Denotes docVel "km/s" c.outV v := by
  obtain ⟨l, h1, h2⟩ := label_value hn (lengthTable c.h) (docLength c.h) "kpc" (3085678 * 10 ^ 15) c.outL
    (by intro p hp
        simp only [lengthTable, List.mem_cons, List.not_mem_nil, or_false] at hp
        rcases hp with rfl | rfl | rfl | rfl | rfl | rfl | rfl | rfl <;> simp [docLength])
    (by simp [docLength]) (by rw [lookup_length]; simp [docLength]) (by positivity) hc.outL
  obtain ⟨m, h3, h4⟩ := label_value hn (massTable c.h) (docMass c.h) "Msun" (1989 * 10 ^ 30) c.outM
    (by intro p hp
        simp only [massTable, List.mem_cons, List.not_mem_nil, or_false] at hp
        rcases hp with rfl | rfl | rfl | rfl <;> simp [docMass])
    (by simp [docMass]) (by rw [lookup_mass]; simp [docMass]) (by positivity) hc.outM
  obtain ⟨v, h5, h6⟩ := label_value hn (velTable (K := K)) docVel "km/s" (10 ^ 5) c.outV
    (by intro p hp
        simp only [velTable, List.mem_cons, List.not_mem_nil, or_false] at hp
        subst hp; simp [docVel])
    (by simp [docVel]) (by rw [lookup_vel]; simp [docVel]) (by positivity) hc.outV
  exact ⟨l, m, v, by simp only [lmvLabel, h1, h3, h5], h2, h4, h6⟩

/-- **C72** A label is exact if the output unit is the base unit times a number of three digits. -/
theorem C72_three_digits (doc : String → Option K) (base : String) (v : K) (hv : doc base = some v) (m e : ℤ) (h1 : 100 ≤ m)
    (h2 : m ≤ 999) (l : Label) (hl : Denotes doc base (decimal3 m e * v) l) : labelValue doc l = some (decimal3 m e * v) := by
  cases l with
  | name s => exact hl
  | multiple m' e' b =>
    obtain ⟨rfl, -, -, v', hv', -, h⟩ := hl
    rw [hv, Option.some.injEq] at hv'
    subst hv'
    have := h m e h1 h2
    rw [sub_self, abs_zero] at this
    simp only [labelValue, hv, Option.map_some, Option.some.injEq]
    exact sub_eq_zero.1 (abs_eq_zero.1 (le_antisymm this (abs_nonneg _)))

/-- **C72 refuted** A label need not be exact: lengths in units of 1.2345 kpc are said to be in units of 1.23 kpc. -/
theorem C72_exact_refuted (near : ℚ → ℤ) (hn : Nearest near) : ∃ (c : Cfg ℚ) (l : Label), c.Pos ∧ (lmvLabel near c).1 = some l ∧
    l = .multiple 123 0 "kpc" ∧ labelValue (docLength c.h) l ≠ some c.outL := by
  have hlog : Int.log 10 (12345 / 10000 : ℚ) = 0 := by
    have h1 := (Int.zpow_le_iff_le_log (b := 10) (by norm_num) (x := 0) (r := (12345 / 10000 : ℚ)) (by norm_num)).1 (by norm_num)
    have h2 := (Int.lt_zpow_iff_log_lt (b := 10) (by norm_num) (x := 1) (r := (12345 / 10000 : ℚ)) (by norm_num)).1 (by norm_num)
    omega
  have hnear : near (12345 / 100) = 123 := by
    have h := hn (12345 / 100)
    rw [abs_le] at h
    have h1 : (122 : ℚ) < near (12345 / 100) := by linarith [h.1]
    have h2 : (near (12345 / 100) : ℚ) < 124 := by linarith [h.2]
    have h3 : 122 < near (12345 / 100) := by exact_mod_cast h1
    have h4 : near (12345 / 100) < 124 := by exact_mod_cast h2
    omega
  have hf : fmt2 near (12345 / 10000 : ℚ) = (123, 0) := by
    unfold fmt2
    simp only [hlog]
    rw [show (12345 / 10000 / 10 ^ ((0 : ℤ) - 2) : ℚ) = 12345 / 100 by norm_num, hnear]
    rfl
  refine ⟨{ defaultCfg with outL := 12345 / 10000 * (3085678 * 10 ^ 15) }, .multiple 123 0 "kpc",
    ⟨defaultCfg_pos.inL, defaultCfg_pos.inM, defaultCfg_pos.inV, defaultCfg_pos.h, by norm_num, defaultCfg_pos.outM,
      defaultCfg_pos.outV⟩, ?_, rfl, ?_⟩
  · change label near (lengthTable (6774 / 10000)) "kpc" (12345 / 10000 * (3085678 * 10 ^ 15)) = _
    have hl : (lengthTable (K := ℚ) (6774 / 10000)).lookup "kpc" = some (3085678 * 10 ^ 15) := by
      rw [lookup_length]; simp [docLength]
    have hne : ¬ (12345 / 10000 * (3085678 * 10 ^ 15) : ℚ) ∈ (lengthTable (6774 / 10000)).map Prod.snd := by
      norm_num [lengthTable]
    unfold label
    rw [if_neg hne, hl, Option.map_some,
      show (12345 / 10000 * (3085678 * 10 ^ 15) / (3085678 * 10 ^ 15) : ℚ) = 12345 / 10000 by norm_num, hf]
  · have hk : docLength (K := ℚ) (6774 / 10000) "kpc" = some (3085678 * 10 ^ 15) := by simp [docLength]
    change (docLength (K := ℚ) (6774 / 10000) "kpc").map _ ≠ some (12345 / 10000 * (3085678 * 10 ^ 15))
    rw [hk]
    norm_num [decimal3]

omit [FloorRing K] in
/-- Python's rounding to the nearest integer exists. -/
example : ∃ near : ℚ → ℤ, Nearest near := ⟨round, fun x => by rw [abs_sub_comm]; exact abs_sub_round x⟩

/-! ## C73 input and output settings -/

/-- **C73 refuted** Choosing an output unit system changes how input data are converted, if another
Hubble constant is passed. -/
theorem C73_output_choice_changes_input_refuted :
    ∃ (c : Cfg ℚ) (l m v : UnitArg ℚ) (h x : ℚ), c.Pos ∧ 0 < h ∧
      (updateOut c l m v h).1 = .ok () ∧
      lengthInToInternal (updateOut c l m v h).2 x ≠ lengthInToInternal c x := by
  refine ⟨defaultCfg, .name "Mpc", .name "Msun", .name "km/s", 1, 1, defaultCfg_pos, by norm_num, ?_, ?_⟩
  · rw [((C12_unit_names defaultCfg _ _ _ 1).1 _ _ _ rfl rfl rfl).2]
  · rw [((C12_unit_names defaultCfg _ _ _ 1).1 _ _ _ rfl rfl rfl).2]
    rw [lengthInToInternal_eq, lengthInToInternal_eq]
    norm_num [defaultCfg, mpch]

/-- **C73** (part) With an unchanged Hubble constant, a successful choice of output units does not
affect the conversion of input data, and a choice of input units does not affect the output.
Missing: the case of different Hubble constants. -/
theorem C73_independent_partial (c : Cfg K) (l m v : UnitArg K) (x : K) :
    lengthInToInternal (updateOut c l m v c.h).2 x = lengthInToInternal c x ∧
    velInToInternal (updateOut c l m v c.h).2 x = velInToInternal c x ∧
    lengthInternalToOut (updateIn c l m v c.h).2 x = lengthInternalToOut c x ∧
    velInternalToOut (updateIn c l m v c.h).2 x = velInternalToOut c x := by
  have h1 : (updateOut c l m v c.h).2.h = c.h ∧ (updateOut c l m v c.h).2.inL = c.inL ∧
      (updateOut c l m v c.h).2.inV = c.inV := by
    unfold updateOut
    cases resolve (lengthTable c.h) l <;> simp only [and_self]
    cases resolve (massTable c.h) m <;> simp only [and_self]
    cases resolve (velTable (K := K)) v <;> simp
  have h2 : (updateIn c l m v c.h).2.h = c.h ∧ (updateIn c l m v c.h).2.outL = c.outL ∧
      (updateIn c l m v c.h).2.outV = c.outV := by
    unfold updateIn
    cases resolve (lengthTable c.h) l <;> simp only [and_self]
    cases resolve (massTable c.h) m <;> simp only [and_self]
    cases resolve (velTable (K := K)) v <;> simp
  simp only [lengthInToInternal_eq, velInToInternal_eq, lengthInternalToOut_eq, velInternalToOut_eq,
    h1, h2, and_self]

end Verif.Units
