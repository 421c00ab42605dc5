import Verif.Api.DensProps
import Verif.Gadget.FofProps
import Verif.Gadget.HdfProps

/-!
# Model of an object made from Gadget files

* `DensShapeProfsGadget.__init__`, `getXYZMasses`, `getR200`, `getIdxCat`
  (`cosmic_profiles/shape_profs/shape_profs_classes.pyx:541-592, 730-745, 786-829`)
* `DensProfsBase.__init__` (`cosmic_profiles/dens_profs/dens_profs_classes.pyx:51-58`)

The models of the readers and of `calcObjCat` are those of `Verif/Gadget` and `Verif/Catalogue`.
-/

namespace Verif.Api

open Verif.Units Verif.Catalogue Verif.Gadget

/-- Why making or reading an object from files may fail. -/
inductive GErr
  | partType | groups (e : Gadget.Err) | snapshot (e : ReadErr) | units | noSubhalos | catalogue | assertion
  | attribute | uninitialised

/-- Arguments of `DensShapeProfsGadget.__init__` that matter here.  `groupFiles` are the files in
`GROUP_DEST`, already sorted (C89). -/
structure GInput where
  snapshot : String
  groupFiles : List (Gadget.File ℝ)
  objType : String
  rvirOrR200 : String
  minPtcs : Int
  center : Center

/-- The machine: disk, meaning of the bytes of a number, rounding to single precision, number of
processes and the process looked at, size of the pieces in which data are broadcast. -/
structure Machine where
  disk : Disk
  f64 : Nat → ℝ
  f32 : ℝ → ℝ
  size : Nat
  rank : Nat
  limit : Nat

/-- Factors by which `readgadget` divides (`…_target_over_curr`), readgadget.py:82-85, 141-144; the internal unit of velocity is
km/s. -/
noncomputable def unitFac (c : Cfg ℝ) (l m : ℝ) : UnitFac := ⟨l / c.inL, m / c.inM, 10 ^ 5 / c.inV⟩

/-- A row of three numbers. -/
def rowVec : Option (List ℝ) → Option (Vec ℝ)
  | some [x, y, z] => some ![x, y, z]
  | _ => none

/-- A row of one number. -/
def rowNum : Option (List ℝ) → Option ℝ
  | some [x] => some x
  | _ => none

/-- Group tables, read by all processes; `none` would be an uninitialised entry. -/
structure Tables where
  nbShs : List Nat
  shLen : List Nat
  fofSizes : List Nat
  r200 : List ℝ

/-- `getFoFSHData(GROUP_DEST, RVIR_OR_R200, getPartType(OBJ_TYPE))` without caching (see C59, C99) and
the check that there are groups, shape_profs_classes.pyx:571-577, 793-796, 817-820. -/
noncomputable def readTables (c : Cfg ℝ) (mc : Machine) (i : GInput) : Except GErr Tables :=
  match internalLM c with
  | .error _ => .error .units
  | .ok (l, _) =>
    match getPartType i.objType with
    | .error _ => .error .partType
    | .ok pt =>
      match readFoF mc.f32 (c.inL / l) mc.limit i.rvirOrR200 pt i.groupFiles mc.size with
      | .error e => .error (.groups e)
      | .ok (nb, sh, fof, r) =>
        match nb.mapM id, sh.mapM id, fof.mapM id, r.mapM id with
        | some nb, some sh, some fof, some r =>
          if nb.length = 0 then .error .noSubhalos else .ok ⟨nb, sh, fof, r⟩
        | _, _, _, _ => .error .uninitialised

/-- `readgadget.read_block(SNAP_DEST, "POS ", …)` and `"MASS"`, shape_profs_classes.pyx:573-574, 736-737:
positions and masses in internal units. -/
noncomputable def readParticles (c : Cfg ℝ) (mc : Machine) (i : GInput) :
    Except GErr (List (Vec ℝ) × List ℝ) :=
  match internalLM c with
  | .error _ => .error .units
  | .ok (l, m) =>
    match getPartType i.objType with
    | .error _ => .error .partType
    | .ok pt =>
      match readAll mc.disk mc.f64 (unitFac c l m) i.snapshot .pos [pt],
        readAll mc.disk mc.f64 (unitFac c l m) i.snapshot .mass [pt] with
      | .ok pos, .ok mass =>
        match pos.mapM rowVec, mass.mapM rowNum with
        | some pos, some mass => .ok (pos, mass)
        | _, _ => .error .uninitialised
      | .error e, _ => .error (.snapshot e)
      | _, .error e => .error (.snapshot e)

/-- `L_BOX`, shape_profs_classes.pyx:590-592. -/
noncomputable def readBox (c : Cfg ℝ) (mc : Machine) (i : GInput) : Except GErr ℝ :=
  match internalLM c with
  | .error _ => .error .units
  | .ok (l, _) =>
    match headerBox mc.disk mc.f64 i.snapshot with
    | .error e => .error (.snapshot e)
    | .ok b => .ok (b * (c.inL / l))

/-- The particle catalogue made by process 0, `calcObjCat` on the tables. -/
def Catalogued (t : Tables) (minPtcs : Int) (out : Option (List Int × List ℝ × List Int)) : Prop :=
  CalcObjCat 0 (t.nbShs.map fun n : Nat => (n : Int)) (t.shLen.map fun n : Nat => (n : Int))
    (t.fofSizes.map fun n : Nat => (n : Int)) t.r200 minPtcs out

/-- `DensShapeProfsGadget.__init__`, shape_profs_classes.pyx:563-592, with the constructors of the base
classes, as a relation (schedules of `calcObjCat`).  On processes other than 0 the arrays are `None`; the
base class accesses `xyz.base` (dens_profs_classes.pyx:53), which raises `AttributeError`.  Simplification:
the order in which the files are read does not matter here. -/
inductive GadgetConstruct (c : Cfg ℝ) (mc : Machine) (i : GInput) : Except GErr Obj → Prop
  | tables (e : GErr) (h : readTables c mc i = .error e) : GadgetConstruct c mc i (.error e)
  | particles (e : GErr) (h : readParticles c mc i = .error e) : GadgetConstruct c mc i (.error e)
  | box (e : GErr) (h : readBox c mc i = .error e) : GadgetConstruct c mc i (.error e)
  | other (hr : mc.rank ≠ 0) (t : Tables) (ht : readTables c mc i = .ok t)
      (p : List (Vec ℝ) × List ℝ) (hp : readParticles c mc i = .ok p)
      (b : ℝ) (hb : readBox c mc i = .ok b) : GadgetConstruct c mc i (.error .attribute)
  | noCatalogue (hr : mc.rank = 0) (t : Tables) (ht : readTables c mc i = .ok t)
      (hc : Catalogued t i.minPtcs none) : GadgetConstruct c mc i (.error .catalogue)
  | finished (hr : mc.rank = 0) (t : Tables) (ht : readTables c mc i = .ok t)
      (p : List (Vec ℝ) × List ℝ) (hp : readParticles c mc i = .ok p)
      (b : ℝ) (hb : readBox c mc i = .ok b)
      (cat : List Int) (r : List ℝ) (sizes : List Int)
      (hc : Catalogued t i.minPtcs (some (cat, r, sizes))) :
      GadgetConstruct c mc i (if p.1.length ≠ p.2.length then .error .assertion else
        .ok ⟨p.1, p.2, cat.map Int.toNat, r, sizes.map Int.toNat, b, i.center⟩)

/-- `getXYZMasses` of an object made from files, on process 0: reads the files again,
shape_profs_classes.pyx:730-745. -/
noncomputable def gadgetXYZMasses (c : Cfg ℝ) (mc : Machine) (i : GInput) :
    Except GErr (List (Vec ℝ) × List ℝ) :=
  match internalLM c, readParticles c mc i with
  | .ok (l, m), .ok p =>
    .ok (p.1.map fun x a => x a * (l / c.outL), p.2.map fun x => x * (m / c.outM))
  | .error _, _ => .error .units
  | _, .error e => .error e

/-! ## Specification -/

/-- A simulation as seen by its author: particles of one type in the order of the files, box length, and
groups with the numbers of particles of that type; lengths and masses in the units of the files. -/
structure Simulation where
  pos : List (Vec ℝ)
  mass : List ℝ
  box : ℝ
  groups : List (Catalogue.Group ℝ)

/-- The HDF5 snapshot contains the particles and the box length. -/
def SnapshotOf (d : Disk) (snapshot : String) (pt : Nat) (s : Simulation) : Prop :=
  ∃ (files : List H5) (pos mass : H5 → List (List ℝ)), H5OnDisk d snapshot files ∧ IsH5Snapshot files ∧
    (∀ f ∈ files, Says f .pos pt (pos f) ∧ Says f .mass pt (mass f) ∧ f.boxsize = s.box) ∧
    files.flatMap pos = (s.pos.map fun x => [x 0, x 1, x 2]) ∧
    files.flatMap mass = s.mass.map fun m => [m]

/-- A binary snapshot (format 1, one file or several, either byte order, IDs of four or eight bytes) contains the particles and the
box length.  Masses are in the mass table of the header or in the mass block; in the latter case every file has this block. -/
def BinarySnapshotOf (d : Disk) (f64 : Nat → ℝ) (snapshot : String) (pt : Nat) (s : Simulation) : Prop :=
  ∃ (big : Bool) (idw : Nat) (files : List Snap) (massarr : List Nat), (idw = 4 ∨ idw = 8) ∧
    OnDisk d snapshot big idw files ∧ IsSnapshot files idw ∧
    (∀ f ∈ files, f.header.massarr = massarr ∧ f64 f.header.boxsize = s.box) ∧
    (massarr.getD pt 0 = 0 → ∀ f ∈ files, f.block big idw .mass ≠ []) ∧
    ((allOf files pt).map fun p => p.pos.map f64) = (s.pos.map fun x => [x 0, x 1, x 2]) ∧
    ((allOf files pt).map fun p => (p.value massarr pt .mass).map f64) = s.mass.map fun x => [x]

/-- The snapshot contains the particles and the box length, in one of the two formats. -/
def StoredIn (mc : Machine) (snapshot : String) (pt : Nat) (s : Simulation) : Prop :=
  SnapshotOf mc.disk snapshot pt s ∨ BinarySnapshotOf mc.disk mc.f64 snapshot pt s

/-- The group files contain the groups; the subhalos of all groups are listed group after group. -/
structure GroupsOf (files : List (Gadget.File ℝ)) (which : String) (pt : Nat) (s : Simulation) : Prop where
  files_ne : files ≠ []
  nSubs : (allGroups files).map (fun g => g.nSubs) = s.groups.map fun g => g.subs.length
  sizes : (allGroups files).map (fun g => g.lenType pt) = s.groups.map fun g => g.fofSize
  radii : (allGroups files).map (fun g => if which = "Rvir" then g.rTopHat else g.rMean) =
    s.groups.map fun g => g.r200
  subs : (allSubhalos files).map (fun h => h pt) = s.groups.flatMap fun g => g.subs

/-- The central subhalos: the first subhalo of each group which has any; its particles are the first ones
behind those of the preceding groups.  With the radius of the group. -/
def centrals (gs : List (Catalogue.Group ℝ)) : List (List Nat × ℝ) :=
  (List.range gs.length).filterMap fun p => gs[p]?.bind fun g => g.subs.head?.map fun c =>
    ((List.range c).map fun k => startOf gs p + k, g.r200)

end Verif.Api
