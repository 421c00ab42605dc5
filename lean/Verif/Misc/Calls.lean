import Verif.Catalogue.Lemmas
import Verif.Misc.Labels

/-!
# Calls of the public methods (C67, C70)

Python's binding of arguments to parameters, with the signatures and the calls of
cosmic_profiles/shape_profs/shape_profs_classes.pyx, cosmic_profiles/shape_profs/shape_profs_tools.py and
cosmic_profiles/common/cosmic_base_class.pyx.  What an implementation does with its arguments is the subject of
the other files; here an implementation is its list of further calls.
-/

namespace Verif.Misc

/-! ## Binding of arguments -/

/-- A signature: names of the parameters without default, then of those with a default (`self` left out). -/
structure Signature where
  required : List String
  optional : List String := []
  deriving DecidableEq, Repr

/-- All parameters in order. -/
def Signature.params (s : Signature) : List String := s.required ++ s.optional

/-- A call: number of positional arguments and names of the keyword arguments. -/
structure Call where
  name : String
  positional : Nat
  keywords : List String := []
  target : Signature
  deriving DecidableEq, Repr

/-- Python's rule: `TypeError` if there are too many positional arguments, if a keyword is not the name of a
parameter, if it names one which has a positional argument or is given twice, or if a parameter without default
gets no argument. -/
def Call.bind (c : Call) : Except Err Unit :=
  if c.positional > c.target.params.length then .error .type
  else if ¬ c.keywords.Nodup then .error .type
  else if c.keywords.any fun k => !(c.target.params.drop c.positional).contains k then .error .type
  else if (c.target.required.drop c.positional).any fun p => !c.keywords.contains p then .error .type
  else .ok ()

/-! ## Signatures -/

/-- common/cosmic_base_class.pyx:83 -/
def getShapeCatLocalBase : Signature := ⟨["xyz", "masses", "r200", "idx_cat", "obj_size", "r_over_r200", "IT_TOL",
  "IT_WALL", "IT_MIN", "reduced", "shell_based", "suffix"], []⟩
/-- :160 -/
def getShapeCatGlobalBase : Signature := ⟨["xyz", "masses", "r200", "idx_cat", "obj_size", "IT_TOL",
  "IT_WALL", "IT_MIN", "reduced", "suffix"], []⟩
/-- :250 -/
def getShapeCatVelLocalBase : Signature := ⟨["xyz", "velxyz", "masses", "r200", "idx_cat", "obj_size", "r_over_r200",
  "IT_TOL", "IT_WALL", "IT_MIN", "reduced", "shell_based", "suffix"], []⟩
/-- :330 -/
def getShapeCatVelGlobalBase : Signature := ⟨["xyz", "velxyz", "masses", "r200", "idx_cat", "obj_size",
  "IT_TOL", "IT_WALL", "IT_MIN", "reduced", "suffix"], []⟩
/-- :422 -/
def dumpShapeCatLocalBase : Signature := ⟨["xyz", "masses", "r200", "idx_cat", "obj_size", "r_over_r200", "IT_TOL",
  "IT_WALL", "IT_MIN", "suffix", "reduced", "shell_based"], []⟩
/-- :482 -/
def dumpShapeCatGlobalBase : Signature := ⟨["xyz", "masses", "r200", "idx_cat", "obj_size", "IT_TOL",
  "IT_WALL", "IT_MIN", "suffix", "reduced"], []⟩
/-- :536 -/
def dumpShapeVelCatLocalBase : Signature := ⟨["xyz", "velxyz", "masses", "r200", "idx_cat", "obj_size", "r_over_r200",
  "IT_TOL", "IT_WALL", "IT_MIN", "suffix", "reduced", "shell_based"], []⟩
/-- :597 -/
def dumpShapeVelCatGlobalBase : Signature := ⟨["xyz", "velxyz", "masses", "r200", "idx_cat", "obj_size",
  "IT_TOL", "IT_WALL", "IT_MIN", "suffix", "reduced"], []⟩
/-- :655 -/
def plotShapeProfsBase : Signature := ⟨["xyz", "masses", "r200", "idx_cat", "obj_size", "r_over_r200", "IT_TOL",
  "IT_WALL", "IT_MIN", "reduced", "shell_based", "nb_bins"], ["suffix"]⟩
/-- :693 -/
def plotLocalTHistBase : Signature := ⟨["xyz", "masses", "r200", "idx_cat", "obj_size", "r_over_r200", "IT_TOL",
  "IT_WALL", "IT_MIN", "HIST_NB_BINS", "frac_r200", "reduced", "shell_based"], ["suffix"]⟩
/-- :733 -/
def plotGlobalTHistBase : Signature := ⟨["xyz", "masses", "r200", "idx_cat", "obj_size", "IT_TOL",
  "IT_WALL", "IT_MIN", "HIST_NB_BINS", "reduced"], ["suffix"]⟩
/-- shape_profs_tools.py:105 -/
def getShapeProfs : Signature := ⟨["VIZ_DEST", "SNAP", "r_over_r200", "r200", "start_time", "obj_masses",
  "obj_centers", "d", "q", "s", "major_full", "nb_bins"], ["MASS_UNIT", "suffix"]⟩
/-- :236 -/
def getLocalTHist : Signature := ⟨["VIZ_DEST", "SNAP", "r_over_r200", "r200", "start_time", "obj_masses",
  "obj_centers", "d", "q", "s", "major_full", "HIST_NB_BINS", "frac_r200", "MASS_UNIT"], ["suffix"]⟩
/-- :299 -/
def getGlobalTHist : Signature := ⟨["VIZ_DEST", "SNAP", "start_time", "obj_masses",
  "obj_centers", "d", "q", "s", "major_full", "HIST_NB_BINS", "MASS_UNIT"], ["suffix"]⟩
/-- :355 -/
def getGlobalEpsHist : Signature := ⟨["xyz", "masses", "idx_cat", "obj_size", "L_BOX", "CENTER", "VIZ_DEST",
  "SNAP"], ["suffix", "HIST_NB_BINS"]⟩
/-- :393 -/
def getLocalEpsHist : Signature := ⟨["xyz", "masses", "r200", "idx_cat", "obj_size", "L_BOX", "CENTER", "VIZ_DEST",
  "SNAP", "frac_r200"], ["suffix", "HIST_NB_BINS"]⟩
/-- :18 -/
def getEpsilon : Signature := ⟨["idx_cat", "obj_size", "xyz", "masses", "L_BOX", "CENTER"], ["angle"]⟩
/-- common/python_routines.py:567 -/
def getCatWithinFracR200Sig : Signature := ⟨["cat_in", "obj_size_in", "xyz", "masses", "L_BOX", "CENTER", "r200",
  "frac_r200"], []⟩

/-! ## Methods -/

/-- The public methods about shapes which take a selection of objects. -/
inductive Method
  | getShapeCatLocal | getShapeCatGlobal | vizLocalShapes | vizGlobalShapes | plotGlobalEpsHist | plotLocalEpsHist
  | plotLocalTHist | plotGlobalTHist | plotShapeProfs | dumpShapeCatLocal | dumpShapeCatGlobal
  | getShapeCatVelLocal | getShapeCatVelGlobal | dumpShapeVelCatLocal | dumpShapeVelCatGlobal
  deriving DecidableEq, Repr

/-- Calls made by the method after the check of the selection, up to the algorithms, in order. -/
def Method.calls : Method → List Call
  /- shape_profs_classes.pyx:94 -/
  | .getShapeCatLocal => [⟨"_getShapeCatLocalBase", 12, [], getShapeCatLocalBase⟩]
  /- :130 -/
  | .getShapeCatGlobal => [⟨"_getShapeCatGlobalBase", 10, [], getShapeCatGlobalBase⟩]
  /- :164 -/
  | .vizLocalShapes => [⟨"_getShapeCatLocalBase", 12, [], getShapeCatLocalBase⟩]
  /- :259 -/
  | .vizGlobalShapes => [⟨"_getShapeCatGlobalBase", 10, [], getShapeCatGlobalBase⟩]
  /- :333, shape_profs_tools.py:384 -/
  | .plotGlobalEpsHist => [⟨"getGlobalEpsHist", 8, ["suffix", "HIST_NB_BINS"], getGlobalEpsHist⟩,
      ⟨"getEpsilon", 6, [], getEpsilon⟩]
  /- :351, shape_profs_tools.py:424, 430 -/
  | .plotLocalEpsHist => [⟨"getLocalEpsHist", 10, ["suffix", "HIST_NB_BINS"], getLocalEpsHist⟩,
      ⟨"getCatWithinFracR200", 7, [], getCatWithinFracR200Sig⟩, ⟨"getEpsilon", 6, [], getEpsilon⟩]
  /- :372, cosmic_base_class.pyx:729-730 -/
  | .plotLocalTHist => [⟨"_plotLocalTHistBase", 13, ["suffix"], plotLocalTHistBase⟩,
      ⟨"_getShapeCatLocalBase", 12, [], getShapeCatLocalBase⟩, ⟨"getLocalTHist", 14, ["suffix"], getLocalTHist⟩]
  /- :393, cosmic_base_class.pyx:761-762 -/
  | .plotGlobalTHist => [⟨"_plotGlobalTHistBase", 10, ["suffix"], plotGlobalTHistBase⟩,
      ⟨"_getShapeCatGlobalBase", 10, [], getShapeCatGlobalBase⟩, ⟨"getGlobalTHist", 11, ["suffix"], getGlobalTHist⟩]
  /- :412, cosmic_base_class.pyx:689-690 -/
  | .plotShapeProfs => [⟨"_plotShapeProfsBase", 12, ["suffix"], plotShapeProfsBase⟩,
      ⟨"_getShapeCatLocalBase", 12, [], getShapeCatLocalBase⟩, ⟨"getShapeProfs", 13, ["suffix"], getShapeProfs⟩]
  /- :429 -/
  | .dumpShapeCatLocal => [⟨"_dumpShapeCatLocalBase", 12, [], dumpShapeCatLocalBase⟩]
  /- :446 -/
  | .dumpShapeCatGlobal => [⟨"_dumpShapeCatGlobalBase", 10, [], dumpShapeCatGlobalBase⟩]
  /- :617 -/
  | .getShapeCatVelLocal => [⟨"_getShapeCatVelLocalBase", 13, [], getShapeCatVelLocalBase⟩]
  /- :659 -/
  | .getShapeCatVelGlobal => [⟨"_getShapeCatVelGlobalBase", 13, [], getShapeCatVelGlobalBase⟩]
  /- :701 -/
  | .dumpShapeVelCatLocal => [⟨"_dumpShapeVelCatLocalBase", 13, [], dumpShapeVelCatLocalBase⟩]
  /- :727 -/
  | .dumpShapeVelCatGlobal => [⟨"_dumpShapeVelCatGlobalBase", 11, [], dumpShapeVelCatGlobalBase⟩]

/-- How a call of a public method ends. -/
inductive End
  /-- the selection was refused -/
  | refused (e : Catalogue.SelErr)
  /-- Python could not call one of the implementing functions -/
  | notCallable (e : Err)
  /-- all of the implementing functions were called -/
  | called
  deriving DecidableEq

/-- Calls one after the other; the first which Python cannot perform raises. -/
def bindAll : List Call → Except Err Unit
  | [] => .ok ()
  | c :: cs => match c.bind with
    | .error e => .error e
    | .ok () => bindAll cs

/-- A public method, for the selection `obj` out of `nb` objects. -/
def Method.run (m : Method) (obj : List ℚ) (nb : Nat) : End :=
  match Catalogue.isValidSelection obj nb with
  | .error e => .refused e
  | .ok _ => match bindAll m.calls with
    | .error e => .notCallable e
    | .ok () => .called

/-! ## `getCatWithinFracR200` -/

/-- The assignment `centers.base[idx] = c`: `centers` is made by `np.zeros`, owns its data, and has `base` `None`. -/
def setBase {α : Type} (base : Option (List α)) (idx : Nat) (c : α) : Except Err (List α) :=
  match base with
  | none => .error .type
  | some l => if idx < l.length then .ok (l.set idx c) else .error .index

/-- Lines 593-598, for objects `is` still to come; `center i` is what is computed for object `i` (with its own
failures). -/
def centersLoop {α : Type} (center : Nat → Except Err α) (base : Option (List α)) : List Nat → Except Err Unit
  | [] => .ok ()
  | i :: is => match center i with
    | .error e => .error e
    | .ok c => match setBase base i c with
      | .error e => .error e
      | .ok l => centersLoop center (some l) is

/-- `getCatWithinFracR200`, common/python_routines.py:567-609; `within i` are the particles of object `i` kept by
the second loop. -/
def getCatWithinFracR200 {α : Type} (center : Nat → Except Err α) (within : Nat → Except Err (List Nat))
    (n : Nat) : Except Err (List Nat × List Nat) :=
  match centersLoop center none (List.range n) with
  | .error e => .error e
  | .ok () => match (List.range n).mapM within with
    | .error e => .error e
    | .ok ls =>
      let kept := ls.filter fun l => !l.isEmpty
      .ok (kept.flatten, kept.map List.length)

/-! ## Properties -/

/-- **C67, refuted** `plotLocalEpsHist` and `getShapeCatVelGlobal` fail with a `TypeError` for every selection
which is accepted. -/
theorem C67_refuted (m : Method) (hm : m = .plotLocalEpsHist ∨ m = .getShapeCatVelGlobal) (obj : List ℚ) (nb : Nat)
    (h : Catalogue.isValidSelection obj nb = .ok true) : m.run obj nb = .notCallable .type := by
  rcases hm with rfl | rfl <;> simp only [Method.run, h] <;> rfl

/-- **C67, for the other methods** Every other public method about shapes gets, for every accepted selection, to
its implementation: each of the implementing functions is called with arguments which fit its parameters. -/
theorem C67_other_methods_partial (m : Method) (hm : m ≠ .plotLocalEpsHist ∧ m ≠ .getShapeCatVelGlobal)
    (obj : List ℚ) (nb : Nat) (h : Catalogue.isValidSelection obj nb = .ok true) : m.run obj nb = .called := by
  have hc : bindAll m.calls = .ok () := by
    revert hm; cases m <;> decide
  simp only [Method.run, h, hc]

/-- A call which goes through gives every parameter without default exactly one argument, and no argument is left
over: this is what `Call.bind` decides. -/
theorem bind_ok_iff (c : Call) : c.bind = .ok () ↔
    c.positional ≤ c.target.params.length ∧ c.keywords.Nodup ∧
      (∀ k ∈ c.keywords, k ∈ c.target.params.drop c.positional) ∧
      (∀ p ∈ c.target.required.drop c.positional, p ∈ c.keywords) := by
  unfold Call.bind
  by_cases h1 : c.positional > c.target.params.length
  · simp [h1]
  · rw [if_neg h1]
    by_cases h2 : c.keywords.Nodup
    · rw [if_neg (by simpa using h2)]
      by_cases h3 : (c.keywords.any fun k => !(c.target.params.drop c.positional).contains k) = true
      · rw [if_pos h3]
        simp only [List.any_eq_true, Bool.not_eq_true', List.contains_eq_mem, decide_eq_false_iff_not] at h3
        obtain ⟨k, hk, hn⟩ := h3
        simp only [reduceCtorEq, false_iff, not_and]
        intro _ _ h
        exact absurd (h k hk) hn
      · rw [if_neg h3]
        have h3' : ∀ k ∈ c.keywords, k ∈ c.target.params.drop c.positional := by
          simpa using h3
        by_cases h4 : ((c.target.required.drop c.positional).any fun p => !c.keywords.contains p) = true
        · rw [if_pos h4]
          simp only [List.any_eq_true, Bool.not_eq_true', List.contains_eq_mem, decide_eq_false_iff_not] at h4
          obtain ⟨k, hk, hn⟩ := h4
          simp only [reduceCtorEq, false_iff, not_and]
          intro _ _ _ h
          exact absurd (h k hk) hn
        · rw [if_neg h4]
          have h4' : ∀ p ∈ c.target.required.drop c.positional, p ∈ c.keywords := by simpa using h4
          simp only [true_iff]
          exact ⟨by omega, h2, h3', h4'⟩
    · rw [if_pos (by simpa using h2)]
      simp [h2]

/-- **C70, refuted** The restriction to the particles within a fraction of R200 fails for every catalogue with at
least one object, whatever the particles are. -/
theorem C70_refuted {α : Type} (center : Nat → Except Err α) (within : Nat → Except Err (List Nat)) (n : Nat)
    (hn : 0 < n) : ∃ e, getCatWithinFracR200 center within n = .error e := by
  obtain ⟨n, rfl⟩ : ∃ k, n = k + 1 := ⟨n - 1, by omega⟩
  unfold getCatWithinFracR200
  rw [List.range_succ_eq_map, centersLoop]
  cases center 0 with
  | error e => exact ⟨e, rfl⟩
  | ok c => exact ⟨.type, rfl⟩

/-- **C70, refuted** If the centre of the first object can be computed, the failure is a `TypeError`. -/
theorem C70_type_error_refuted {α : Type} (center : Nat → Except Err α) (within : Nat → Except Err (List Nat))
    (n : Nat) (hn : 0 < n) (c : α) (hc : center 0 = .ok c) :
    getCatWithinFracR200 center within n = .error .type := by
  obtain ⟨n, rfl⟩ : ∃ k, n = k + 1 := ⟨n - 1, by omega⟩
  unfold getCatWithinFracR200
  rw [List.range_succ_eq_map, centersLoop, hc]
  rfl

/-- **C70, for no objects** Without objects nothing fails and nothing is returned. -/
theorem C70_no_objects_partial {α : Type} (center : Nat → Except Err α) (within : Nat → Except Err (List Nat)) :
    getCatWithinFracR200 center within 0 = .ok ([], []) := rfl

/- Two of five objects, accepted. -/
example : Catalogue.isValidSelection [1, 3] 5 = .ok true ∧
    Method.plotLocalEpsHist.run [1, 3] 5 = .notCallable .type ∧
    Method.getShapeCatVelGlobal.run [1, 3] 5 = .notCallable .type ∧
    Method.dumpShapeVelCatGlobal.run [1, 3] 5 = .called := by
  have h : Catalogue.isValidSelection [1, 3] 5 = .ok true := by decide +kernel
  exact ⟨h, C67_refuted _ (by decide) _ _ h, C67_refuted _ (by decide) _ _ h,
    C67_other_methods_partial _ (by decide) _ _ h⟩

example : getCatWithinFracR200 (α := ℚ) (fun i => .ok i) (fun i => .ok [i]) 3 = .error .type :=
  C70_type_error_refuted _ _ 3 (by decide) 0 rfl

end Verif.Misc
