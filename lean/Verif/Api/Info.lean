import Verif.Api.GadgetProps

/-!
# Information on objects (C129)

* `getObjInfo` (`cosmic_profiles/dens_profs/dens_profs_classes.pyx:237-241`)
* `getObjInfoGadget` (`cosmic_profiles/shape_profs/shape_profs_classes.pyx:831-846`)
* `_getObjInfoBase` (`cosmic_profiles/common/cosmic_base_class.pyx:1130-1141`)
* `print_status` (`cosmic_profiles/common/python_routines.py:169-194`)
-/

namespace Verif.Api

open Verif.Units Verif.Catalogue Verif.Gadget

/-! ## Model -/

/-- How `print_status` may be asked to print: without colour, with one of the three it knows, with another one. -/
inductive Colour
  | green | red | blue | other
  deriving DecidableEq

/-- `print_status`, python_routines.py:169-194: the line printed, if any; `none`: `AssertionError`.  Simplification: the line without
the control characters of the colour and without the elapsed time. -/
def printStatus (rank : Nat) (allowedAny : Bool) (colour : Option Colour) (message : String) : Option (List String) :=
  if rank = 0 ∨ allowedAny = true then
    match colour with
    | none => some [message]
    | some .green => some [message]
    | some .red => some [message]
    | some .blue => some [message]
    | some .other => none
  else some []

/-- `_getObjInfoBase`, cosmic_base_class.pyx:1141: the number of objects printed. -/
def infoBase (o : Obj) : Nat := o.sizes.length

/-- The numbers printed by `getObjInfoGadget`, in the order of the lines. -/
structure Info where
  resolvedBase : Nat
  withSubhalo : Nat
  groups : Nat
  subhalos : Nat
  withoutSubhalo : Nat
  resolvedDetail : Nat

/-- `x != []` for an entry `x` of `self.idx_cat.base`, shape_profs_classes.pyx:845: `idx_cat` is one array of particle indices, so
`x` is a number of numpy; comparing it with an empty list gives an empty array, which counts as false.  (Newer versions of numpy raise
`ValueError` instead of a warning; the number is not printed at all then.) -/
def differsFromEmptyList (_ : Nat) : Bool := false

/-- `getObjInfoGadget`, shape_profs_classes.pyx:831-846, on process 0. -/
noncomputable def objInfoGadget (c : Cfg ℝ) (mc : Machine) (i : GInput) (o : Obj) : Except GErr Info :=
  match readTables c mc i with
  | .error e => .error e
  | .ok t => .ok ⟨infoBase o, (t.nbShs.filter fun n => n != 0).length, t.nbShs.length, t.shLen.length,
      (t.nbShs.filter fun n => n == 0).length, (o.idxCat.filter differsFromEmptyList).length⟩

/-! ## Proofs -/

theorem length_filter_map' {α β : Type} (f : α → β) (p : β → Bool) (l : List α) :
    ((l.map f).filter p).length = (l.filter fun a => p (f a)).length := by
  rw [List.filter_map, List.length_map]
  rfl

/-- C129 (part). For an object made (on process 0) from files of a simulation, `getObjInfoGadget` prints: the number of objects with
enough particles, the number of groups with a subhalo, the number of groups, the number of subhalos, the number of groups without a
subhalo.  `getObjInfo` prints the first of these.  Missing: the last line, see `C129_detail_refuted`. -/
theorem C129_numbers_partial (c : Cfg ℝ) (hc : c.Pos) (mc : Machine) (hrank : mc.rank = 0) (hsize : 0 < mc.size)
    (i : GInput) (pt : Nat) (hpt : getPartType i.objType = .ok pt)
    (hw : i.rvirOrR200 = "Rvir" ∨ i.rvirOrR200 = "R200") (s : Simulation) (hlen : s.pos.length = s.mass.length)
    (hs : StoredIn mc i.snapshot pt s) (hg : GroupsOf i.groupFiles i.rvirOrR200 pt s)
    (hne : centrals s.groups ≠ []) (o : Obj) (ho : GadgetConstruct c mc i (.ok o)) :
    ∃ info, objInfoGadget c mc i o = .ok info ∧
      info.resolvedBase = (resolved i.minPtcs (centrals s.groups)).length ∧
      info.withSubhalo = (s.groups.filter fun g => g.subs.length != 0).length ∧
      info.groups = s.groups.length ∧
      info.subhalos = (s.groups.map fun g => g.subs.length).sum ∧
      info.withoutSubhalo = (s.groups.filter fun g => g.subs.length == 0).length ∧
      infoBase o = info.resolvedBase := by
  have hgne : s.groups ≠ [] := by rintro h0; exact hne (by simp [h0, centrals])
  obtain ⟨o', ho', hoo⟩ := (C100_files_as_arrays c hc mc hrank hsize i pt hpt hw s hlen hs hg hne _).1 ho
  rw [construct_eq c s.pos s.mass s.box (centrals s.groups) i.minPtcs i.center hlen hne] at ho'
  obtain rfl := Except.ok.inj ho'
  obtain rfl := Except.ok.inj hoo
  unfold objInfoGadget
  rw [readTables_eq c mc i pt hpt hw hsize s hg hgne]
  refine ⟨_, rfl, ?_, length_filter_map' _ _ _, List.length_map _, ?_, length_filter_map' _ _ _, rfl⟩
  · simp [infoBase]
  · simp [List.length_flatMap]

/-- C129 is false for the last line of `getObjInfoGadget`, the number of objects with enough particles: it is 0, also if the first
line says (rightly) that there are such objects. -/
theorem C129_detail_refuted (c : Cfg ℝ) (mc : Machine) (i : GInput) (o : Obj) (info : Info)
    (h : objInfoGadget c mc i o = .ok info) : info.resolvedDetail = 0 := by
  unfold objInfoGadget at h
  split at h
  · cases h
  · obtain rfl := Except.ok.inj h
    simp [differsFromEmptyList]

/-- C129, messages: a message appears once, whatever the number of processes, unless printing on any process is asked for; then
every process prints it.  Only an unknown colour is an error. -/
theorem C129_messages (size : Nat) (hsize : 0 < size) (allowedAny : Bool) (colour : Option Colour) (hc : colour ≠ some .other)
    (message : String) :
    ((List.range size).map fun rank => printStatus rank allowedAny colour message) =
      if allowedAny then List.replicate size (some [message])
      else some [message] :: List.replicate (size - 1) (some []) := by
  have h : ∀ rank, printStatus rank allowedAny colour message =
      if rank = 0 ∨ allowedAny = true then some [message] else some [] := by
    intro rank
    unfold printStatus
    split
    · match colour, hc with
      | none, _ => rfl
      | some .green, _ => rfl
      | some .red, _ => rfl
      | some .blue, _ => rfl
      | some .other, hc => exact absurd rfl hc
    · rfl
  simp only [h]
  cases allowedAny with
  | true => simp
  | false =>
    obtain ⟨n, rfl⟩ : ∃ n, size = n + 1 := ⟨size - 1, by omega⟩
    simp [List.range_succ_eq_map, Function.comp_def, List.map_const']

/-- The example of C100 satisfies the hypotheses: one object is resolved. -/
example (c : Cfg ℝ) (hc : c.Pos) : ∃ o info, GadgetConstruct c exampleMachine exampleInput (.ok o) ∧
    objInfoGadget c exampleMachine exampleInput o = .ok info ∧ info.resolvedBase = 1 ∧ info.resolvedDetail = 0 := by
  obtain ⟨h1, h2, h3, h4⟩ := exampleSim_files
  have hlen : exampleSim.pos.length = exampleSim.mass.length := rfl
  have hne : centrals exampleSim.groups ≠ [] := by
    intro h; rw [h] at h4; simp [resolved] at h4
  have hC := fun out => C100_files_as_arrays c hc exampleMachine rfl (by simp [exampleMachine]) exampleInput 1 rfl (.inl rfl)
    exampleSim hlen h1 h2 hne out
  have hcon := construct_eq c exampleSim.pos exampleSim.mass exampleSim.box (centrals exampleSim.groups) exampleInput.minPtcs
    exampleInput.center hlen hne
  obtain ho := (hC _).2 ⟨_, hcon, rfl⟩
  obtain ⟨info, hi, hb, -⟩ := C129_numbers_partial c hc exampleMachine rfl (by simp [exampleMachine]) exampleInput 1 rfl (.inl rfl)
    exampleSim hlen h1 h2 hne _ ho
  refine ⟨_, info, ho, hi, ?_, C129_detail_refuted _ _ _ _ _ hi⟩
  rw [hb]
  show (resolved 2 _).length = 1
  rw [h4]
  rfl

end Verif.Api
