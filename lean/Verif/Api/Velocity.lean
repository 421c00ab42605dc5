import Verif.Api.GadgetProps
import Verif.Gadget.SnapExamples

/-!
# Velocities of the particles of a snapshot (C122)

* `DensShapeProfsGadget.getVelXYZ`, `_getVelXYZ` (`cosmic_profiles/shape_profs/shape_profs_classes.pyx:759-784`)
* `getLMVInternal` (`cosmic_profiles/common/config.py:17-19`): the internal unit of velocity is km/s
-/

namespace Verif.Api

open Verif.Units Verif.Catalogue Verif.Gadget

/-- `_getVelXYZ`, shape_profs_classes.pyx:773-784: velocities in km/s on process 0 and `None` on the others. -/
noncomputable def gadgetVelocities (c : Cfg ℝ) (mc : Machine) (i : GInput) : Except GErr (Option (List (Vec ℝ))) :=
  match internalLM c with
  | .error _ => .error .units
  | .ok (l, m) =>
    match getPartType i.objType with
    | .error _ => .error .partType
    | .ok pt =>
      match readAll mc.disk mc.f64 (unitFac c l m) i.snapshot .vel [pt] with
      | .error e => .error (.snapshot e)
      | .ok vel =>
        match vel.mapM rowVec with
        | none => .error .uninitialised
        | some vel => .ok (if mc.rank = 0 then some vel else none)

/-- `getVelXYZ`, shape_profs_classes.pyx:759-771: the same, times `vel_internal / OutUnitVelocity`. -/
noncomputable def gadgetVelXYZ (c : Cfg ℝ) (mc : Machine) (i : GInput) : Except GErr (Option (List (Vec ℝ))) :=
  (gadgetVelocities c mc i).map fun v => v.map fun vs => vs.map fun v a => v a * (10 ^ 5 / c.outV)

/-! ## Specification -/

/-- What Gadget stores of a velocity `w` (cm/s) at the scale factor `a`, in a file whose unit of velocity is
`unit` (cm/s). -/
noncomputable def storedVelocity (unit a : ℝ) (w : Vec ℝ) : List ℝ :=
  [w 0 / (√a * unit), w 1 / (√a * unit), w 2 / (√a * unit)]

/-- The HDF5 snapshot, in one file or several, contains particles of the type with velocities `ws`. -/
def VelocitiesOf (d : Disk) (snapshot : String) (pt : Nat) (unit a : ℝ) (ws : List (Vec ℝ)) : Prop :=
  ∃ (files : List H5) (vel : H5 → List (List ℝ)), H5OnDisk d snapshot files ∧ IsH5Snapshot files ∧
    (∀ f ∈ files, Says f .vel pt (vel f) ∧ f.time = a) ∧ files.flatMap vel = ws.map (storedVelocity unit a)

/-- The same for binary snapshots in either byte order; `f64` is the meaning of eight bytes. -/
def BinaryVelocitiesOf (d : Disk) (f64 : Nat → ℝ) (snapshot : String) (pt : Nat) (unit a : ℝ) (ws : List (Vec ℝ)) : Prop :=
  ∃ (big : Bool) (idw : Nat) (files : List Snap) (massarr : List Nat), (idw = 4 ∨ idw = 8) ∧
    OnDisk d snapshot big idw files ∧ IsSnapshot files idw ∧ (∀ f ∈ files, f.header.massarr = massarr) ∧
    (∀ f ∈ files, f64 f.header.time = a ∧ (f64 f.header.redshift = 0 → a = 1)) ∧
    (allOf files pt).map (fun p => p.vel.map f64) = ws.map (storedVelocity unit a)

/-! ## Proofs -/

theorem mapM_rowVec' (f : ℝ → ℝ) (l : List (Vec ℝ)) :
    (l.map fun w => some [f (w 0), f (w 1), f (w 2)]).mapM rowVec = some (l.map fun w a => f (w a)) := by
  induction l with
  | nil => rfl
  | cons a l ih =>
    simp only [List.map_cons, List.mapM_cons, rowVec, Option.bind_eq_bind, Option.bind_some, ih]
    simp only [Option.pure_def, Option.some.injEq, List.cons.injEq, and_true]
    funext j
    fin_cases j <;> rfl

theorem finishVelocities (c : Cfg ℝ) (mc : Machine) (i : GInput) (pt : Nat) (hpt : getPartType i.objType = .ok pt)
    (ws : List (Vec ℝ)) (f : ℝ → ℝ) (hf : ∀ x, f x * (10 ^ 5 / c.outV) = x / c.outV)
    (h : readAll mc.disk mc.f64 (unitFac c (mpch c.h) (msunh10 c.h)) i.snapshot .vel [pt] =
      .ok (ws.map fun w => some [f (w 0), f (w 1), f (w 2)])) :
    gadgetVelXYZ c mc i = .ok (if mc.rank = 0 then some (ws.map fun w a => w a / c.outV) else none) := by
  unfold gadgetVelXYZ gadgetVelocities
  rw [internalLM_eq, hpt]
  simp only
  rw [h]
  simp only
  rw [mapM_rowVec']
  by_cases hr : mc.rank = 0
  · simp only [hr, if_true, Except.map, Option.map_some, List.map_map, Function.comp_def, hf]
  · simp [hr, Except.map]

/-- C122 (HDF5). The velocities of the particles of the type come back in the outgoing unit, in the order of the
files, on process 0; the other processes get nothing. -/
theorem C122_hdf5 (c : Cfg ℝ) (hc : c.Pos) (mc : Machine) (i : GInput) (pt : Nat) (hpt : getPartType i.objType = .ok pt)
    (a : ℝ) (ha : 0 < a) (ws : List (Vec ℝ)) (hs : VelocitiesOf mc.disk i.snapshot pt c.inV a ws) :
    gadgetVelXYZ c mc i = .ok (if mc.rank = 0 then some (ws.map fun w j => w j / c.outV) else none) := by
  obtain ⟨files, vel, h1, h2, h3, h4⟩ := hs
  have hs : 0 < √a := Real.sqrt_pos.2 ha
  have hV := hc.inV
  have hO := hc.outV
  refine finishVelocities c mc i pt hpt ws (fun x => x / (√a * c.inV) / (10 ^ 5 / c.inV) * √a) ?_ ?_
  · intro x
    field_simp
  · rw [C57_hdf5_partial _ _ files h1 h2 _ _ _ _ (by simp) (fun f _ => vel f)
      (fun f hf pt' hpt' => by rw [List.mem_singleton] at hpt'; subst hpt'; exact (h3 f hf).1)]
    simp only [List.flatMap_cons, List.flatMap_nil, List.append_nil, Except.ok.injEq]
    have : (files.flatMap fun f => converted (unitFac c (mpch c.h) (msunh10 c.h)) f .vel (vel f)) =
        (files.flatMap vel).map fun row => some (row.map fun x => x / (10 ^ 5 / c.inV) * √a) := by
      rw [List.map_flatMap]
      apply List.flatMap_congr
      intro f hf
      unfold converted
      rw [(h3 f hf).2]
      simp [UnitFac.of, unitFac]
    rw [this, h4, List.map_map]
    rfl

/-- C122 (binary). -/
theorem C122_binary (c : Cfg ℝ) (hc : c.Pos) (mc : Machine) (i : GInput) (pt : Nat) (hpt : getPartType i.objType = .ok pt)
    (a : ℝ) (ha : 0 < a) (ws : List (Vec ℝ)) (hs : BinaryVelocitiesOf mc.disk mc.f64 i.snapshot pt c.inV a ws) :
    gadgetVelXYZ c mc i = .ok (if mc.rank = 0 then some (ws.map fun w j => w j / c.outV) else none) := by
  obtain ⟨big, idw, files, massarr, hidw, h1, h2, hm, h3, h4⟩ := hs
  have hs : 0 < √a := Real.sqrt_pos.2 ha
  have hV := hc.inV
  have hO := hc.outV
  obtain ⟨f, rest, name, hfiles, -, -, -⟩ := h1.first
  have hfm : f ∈ files := by rw [hfiles]; exact List.mem_cons_self
  have hpt6 : pt < 6 := by
    unfold getPartType at hpt
    split_ifs at hpt <;> · cases hpt; decide
  refine finishVelocities c mc i pt hpt ws (fun x => x / (√a * c.inV) * √a / (10 ^ 5 / c.inV)) ?_ ?_
  · intro x
    field_simp
  · rw [C57_binary_partial mc.disk i.snapshot big idw hidw files h1 h2 massarr hm f (by rw [hfiles]; rfl) mc.f64 _
      .vel [pt] (fun pt' h => by rw [List.mem_singleton] at h; subst h; exact hpt6)
      (fun _ h => by rw [(h3 f hfm).1]; exact (h3 f hfm).2 h) (by simp) (by simp)]
    simp only [List.flatMap_cons, List.flatMap_nil, List.append_nil, Except.ok.injEq]
    have : ((allOf files pt).map fun p => some ((p.value massarr pt .vel).map fun x =>
          physical mc.f64 (mc.f64 f.header.time) .vel x / (unitFac c (mpch c.h) (msunh10 c.h)).of .vel)) =
        ((allOf files pt).map fun p => p.vel.map mc.f64).map fun row => some (row.map fun x => x * √a / (10 ^ 5 / c.inV)) := by
      rw [List.map_map]
      apply List.map_congr_left
      intro p _
      rw [(h3 f hfm).1]
      simp [Part.value, Part.stored, physical, UnitFac.of, unitFac]
    rw [this, h4, List.map_map]
    rfl

/-! ## Examples -/

/-- A snapshot file of two particles with velocities. -/
noncomputable def movingFile : H5 where
  npart := [0, 2]
  nall := [0, 2]
  massarr := [0, 0]
  filenum := 1
  time := 1 / 4
  boxsize := 10
  data := fun _ _ => some [[6, 0, 0], [0, 8, 2]]
  ids := fun _ => none

/-- Scale factor 1/4, file in km/s: the stored numbers 6, 8, 2 mean 3, 4 and 1 km/s. -/
example : VelocitiesOf ⟨fun _ => none, fun n => if n = "s.hdf5" then some movingFile else none⟩ "s.hdf5" 1 (10 ^ 5) (1 / 4)
    [![3 * 10 ^ 5, 0, 0], ![0, 4 * 10 ^ 5, 10 ^ 5]] := by
  have h2 : √(1 / 4 : ℝ) = 1 / 2 := by
    rw [show (1 / 4 : ℝ) = (1 / 2) ^ 2 by norm_num, Real.sqrt_sq (by norm_num)]
  refine ⟨[movingFile], fun f => (f.data .vel 1).getD [], ?_, ⟨?_, ?_⟩, ?_, ?_⟩
  · refine .single movingFile "s.hdf5" ?_ (by simp)
    unfold fnameFormat
    rw [if_pos (by simp [Disk.exists_]), if_pos (show endsHdf5 "s.hdf5" = true by decide)]
  · intro f hf; rw [List.mem_singleton] at hf; subst hf; rfl
  · intro f hf j; rw [List.mem_singleton] at hf; subst hf; simp [movingFile]
  · intro f hf
    rw [List.mem_singleton] at hf
    subst hf
    exact ⟨.data _ _ _ (by simp) rfl (by simp [movingFile]), rfl⟩
  · have e1 : (![3 * 10 ^ 5, 0, 0] : Vec ℝ) 2 = 0 := rfl
    have e2 : (![0, 4 * 10 ^ 5, 10 ^ 5] : Vec ℝ) 2 = 10 ^ 5 := rfl
    simp only [movingFile, storedVelocity, h2, List.map_cons, List.map_nil, e1, e2]
    norm_num

/-- The two binary files of `snapshotAB`, in either byte order, if the bytes 0 mean 7 and all others 1/4. -/
example (big : Bool) : BinaryVelocitiesOf (diskAB big) (fun n => if n = 0 then 7 else 1 / 4) "s" 1 (10 ^ 5) (1 / 4)
    (List.replicate 3 fun _ => 7 / 2 * 10 ^ 5) := by
  have h2 : √(1 / 4 : ℝ) = 1 / 2 := by
    rw [show (1 / 4 : ℝ) = (1 / 2) ^ 2 by norm_num, Real.sqrt_sq (by norm_num)]
  refine ⟨big, 4, [fileA, fileB], [0, 7, 0, 0, 0, 0], .inl rfl, onDiskAB big, snapshotAB, ?_, ?_, ?_⟩
  · intro f hf
    simp only [List.mem_cons, List.not_mem_nil, or_false] at hf
    rcases hf with rfl | rfl <;> rfl
  · intro f hf
    simp only [List.mem_cons, List.not_mem_nil, or_false] at hf
    rcases hf with rfl | rfl <;> norm_num [fileA, fileB, snapFile, hdr]
  · norm_num [allOf, fileA, fileB, snapFile, ptc, storedVelocity, h2, List.replicate]

end Verif.Api
