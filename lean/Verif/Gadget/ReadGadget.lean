import Verif.Gadget.Snap
import Mathlib.Analysis.Real.Sqrt

/-!
# Model of `cosmic_profiles/gadget/readgadget.py`

Snapshots on disk, binary (bytes, see `Snap.lean`) or HDF5 (datasets and attributes).  Numbers are real
numbers; `f64` is the interpretation of a bit pattern as a number, left arbitrary.
-/

namespace Verif.Gadget

/-! ## File names -/

/-- `fformat`, readgadget.py:16-30. -/
inductive Format | binary | hdf5
  deriving DecidableEq, Repr

/-- `snapshot[-4:]=='hdf5'`. -/
def endsHdf5 (s : String) : Bool := s.toList.drop (s.toList.length - 4) = "hdf5".toList

/-- `fname_format(snapshot)`, readgadget.py:16-30. -/
def fnameFormat (exists_ : String → Bool) (snapshot : String) : Except ReadErr (String × Format) :=
  if exists_ snapshot then
    if endsHdf5 snapshot then .ok (snapshot, .hdf5) else .ok (snapshot, .binary)
  else if exists_ (snapshot ++ ".0") then .ok (snapshot ++ ".0", .binary)
  else if exists_ (snapshot ++ ".hdf5") then .ok (snapshot ++ ".hdf5", .hdf5)
  else if exists_ (snapshot ++ ".0.hdf5") then .ok (snapshot ++ ".0.hdf5", .hdf5)
  else .error .exception

/-! ## Disk -/

/-- An HDF5 file: the attributes of the header and the datasets (`none`: not in the file), rows of
numbers; IDs are integers. -/
structure H5 where
  npart : List Nat
  nall : List Nat
  massarr : List ℝ
  filenum : Nat
  time : ℝ
  boxsize : ℝ
  data : Block → Nat → Option (List (List ℝ))
  ids : Nat → Option (List Nat)

/-- Files by name: binary files as bytes, HDF5 files as contents. -/
structure Disk where
  bin : String → Option (List Nat)
  h5 : String → Option H5

/-- `os.path.exists`, readgadget.py:17-26. -/
def Disk.exists_ (d : Disk) (s : String) : Bool := (d.bin s).isSome || (d.h5 s).isSome

/-- What is used of `header(snapshot)`, readgadget.py:34-71. -/
structure Head where
  npart : List Nat
  nall : List Nat
  filenum : Nat

/-- `header(filename)`, readgadget.py:34-71.  A file of the wrong kind is rejected by `h5py` or by the
check of the first record. -/
def header (d : Disk) (snapshot : String) : Except ReadErr Head :=
  (fnameFormat d.exists_ snapshot).bind fun r =>
    match r.2 with
    | .hdf5 => match d.h5 r.1 with
      | some f => .ok ⟨f.npart, f.nall, f.filenum⟩
      | none => .error .exception
    | .binary => match d.bin r.1 with
      | some b => (snapshotHeader b).map fun h => ⟨h.2.2.npart, h.2.2.nall, h.2.2.filenum⟩
      | none => .error .systemExit

/-- `header(filename).boxsize`, readgadget.py:34-71. -/
noncomputable def headerBox (d : Disk) (f64 : Nat → ℝ) (snapshot : String) : Except ReadErr ℝ :=
  (fnameFormat d.exists_ snapshot).bind fun r =>
    match r.2 with
    | .hdf5 => match d.h5 r.1 with
      | some f => .ok f.boxsize
      | none => .error .exception
    | .binary => match d.bin r.1 with
      | some b => (snapshotHeader b).map fun h => f64 h.2.2.boxsize
      | none => .error .systemExit

/-! ## Numbers -/

/-- Conversion of an unsigned integer to `float64`: rounding to 53 significant bits, ties to even. -/
def round53 (n : Nat) : Nat :=
  let s := 2 ^ (Nat.log2 n - 52)
  let q := n / s
  let r := n % s
  (if 2 * r < s then q else if 2 * r > s then q + 1 else if q % 2 = 0 then q else q + 1) * s

/-- Factors by which data are divided, readgadget.py:82-101 and 141-158. -/
structure UnitFac where
  len : ℝ
  mass : ℝ
  vel : ℝ

/-- The factor of a block. -/
def UnitFac.of (u : UnitFac) : Block → ℝ
  | .pos => u.len
  | .mass => u.mass
  | .id => 1
  | .vel => u.vel

/-- A number of a block of a binary file; IDs are integers and become `float64` in the division. -/
noncomputable def number (f64 : Nat → ℝ) (b : Block) (x : Nat) : ℝ :=
  if b = .id then (round53 x : ℝ) else f64 x

/-- An array of rows (one-dimensional for one number per row), or the one-dimensional array which replaces
a missing dataset. -/
inductive Arr
  | rows (l : List (Option (List ℝ)))
  | flat (l : List ℝ)

/-- Scaling of velocities in `readsnap.read_block`, readsnap.py:385-386. -/
noncomputable def velFactor (f64 : Nat → ℝ) (b : Block) (h : Header) : ℝ :=
  if b = .vel ∧ f64 h.redshift ≠ 0 then √(f64 h.time) else 1

/-- `readsnap.read_block(snapshot, block, pt)/unit_fac`.  The header of the file which is used first
is read again for the scaling of velocities. -/
noncomputable def binaryBlock (d : Disk) (f64 : Nat → ℝ) (u : UnitFac) (snapshot : String) (b : Block) (pt : Nat) :
    Except ReadErr Arr :=
  (readBlock d.bin snapshot b pt).bind fun l =>
  (openFile d.bin (if (d.bin snapshot).isSome then snapshot else snapshot ++ ".0")).bind fun file =>
  (snapshotHeader file).map fun h =>
    .rows (l.map fun r => r.map fun row => row.map fun x => number f64 b x * velFactor f64 b h.2.2 / u.of b)

/-- Rows of a dataset. -/
noncomputable def H5.rows (f : H5) (b : Block) (pt : Nat) : Option (List (List ℝ)) :=
  if b = .id then (f.ids pt).map fun l => l.map fun n : Nat => [(round53 n : ℝ)] else f.data b pt

/-- `read_field(snapshot, block, ptype)` for HDF5, readgadget.py:106-122. -/
noncomputable def h5Field (f : H5) (u : UnitFac) (b : Block) (pt : Nat) : Except ReadErr Arr :=
  let fac : ℝ := if b = .vel then √f.time else 1
  match f.rows b pt with
  | none =>
    if f.massarr.getD pt 0 ≠ 0 then
      .ok (.flat (List.replicate (f.npart.getD pt 0) (f.massarr.getD pt 0 / u.of b * fac)))
    else .error .exception
  | some l => .ok (.rows (l.map fun row => some (row.map fun x => x / u.of b * fac)))

/-- `read_field(snapshot, block, ptype)`, readgadget.py:75-122. -/
noncomputable def readField (d : Disk) (f64 : Nat → ℝ) (u : UnitFac) (snapshot : String) (b : Block) (pt : Nat) :
    Except ReadErr Arr :=
  (fnameFormat d.exists_ snapshot).bind fun r =>
  (header d r.1).bind fun _ =>
    match r.2 with
    | .binary => binaryBlock d f64 u r.1 b pt
    | .hdf5 => match d.h5 r.1 with
      | some f => h5Field f u b pt
      | none => .error .exception

/-! ## The array -/

/-- `array[lo:lo+n] = xs` for rows of `comps` numbers: the slice is clipped; lengths must agree unless
there is one row; a one-dimensional array is broadcast along the rows if there are several numbers per
row. -/
def assign (comps : Nat) (array : List (Option (List ℝ))) (lo n : Nat) (xs : Arr) :
    Except ReadErr (List (Option (List ℝ))) :=
  let m := min n (array.length - lo)
  let put := fun l => array.take lo ++ l ++ array.drop (lo + m)
  match xs with
  | .rows l =>
    if l.length = m then .ok (put l)
    else match l with
      | [x] => .ok (put (List.replicate m x))
      | _ => .error .valueError
  | .flat l =>
    if comps = 1 then
      if l.length = m then .ok (put (l.map fun x => some [x]))
      else match l with
        | [x] => .ok (put (List.replicate m (some [x])))
        | _ => .error .valueError
    else if l.length = comps then .ok (put (List.replicate m (some l)))
    else match l with
      | [x] => .ok (put (List.replicate m (some (List.replicate comps x))))
      | _ => .error .valueError

/-- State of the loops of `read_block`. -/
structure Array_ where
  offset : Nat
  rows : List (Option (List ℝ))

/-- `'%s.%d.hdf5'%(snapshot,i)`. -/
def h5Name (snapshot : String) (i : Nat) : String := snapshot ++ "." ++ toString i ++ ".hdf5"

/-- Loop over the files of an HDF5 snapshot, readgadget.py:179-189. -/
noncomputable def h5Files (d : Disk) (f64 : Nat → ℝ) (u : UnitFac) (snapshot : String) (b : Block) (pt : Nat) :
    List Nat → Array_ → Except ReadErr Array_
  | [], s => .ok s
  | i :: is, s =>
    (header d (h5Name snapshot i)).bind fun h =>
    (readField d f64 u (h5Name snapshot i) b pt).bind fun xs =>
    (assign b.comps s.rows s.offset (h.npart.getD pt 0) xs).bind fun rows =>
      h5Files d f64 u snapshot b pt is ⟨s.offset + h.npart.getD pt 0, rows⟩

/-- One particle type, readgadget.py:164-189. -/
noncomputable def readType (d : Disk) (f64 : Nat → ℝ) (u : UnitFac) (snapshot : String) (fmt : Format) (hd : Head)
    (b : Block) (s : Array_) (pt : Nat) : Except ReadErr Array_ :=
  match fmt with
  | .binary =>
    (binaryBlock d f64 u snapshot b pt).bind fun xs =>
    (assign b.comps s.rows s.offset (hd.nall.getD pt 0) xs).map fun rows => ⟨s.offset + hd.nall.getD pt 0, rows⟩
  | .hdf5 =>
    if hd.filenum = 1 then
      (readField d f64 u snapshot b pt).bind fun xs =>
      (assign b.comps s.rows s.offset (hd.nall.getD pt 0) xs).map fun rows => ⟨s.offset + hd.nall.getD pt 0, rows⟩
    else h5Files d f64 u snapshot b pt (List.range hd.filenum) s

/-- `dtype=read_field(filename, block, ptype[0]).dtype` for IDs, readgadget.py:151-153. -/
noncomputable def idType (d : Disk) (f64 : Nat → ℝ) (u : UnitFac) (filename : String) (b : Block)
    (ptypes : List Nat) : Except ReadErr Unit :=
  if b = .id then
    match ptypes with
    | [] => .error .indexError
    | pt :: _ => (readField d f64 u filename b pt).map fun _ => ()
  else .ok ()

/-- `read_block(snapshot, block, ptype)`, readgadget.py:127-194, for particle types 0 to 5. -/
noncomputable def readAll (d : Disk) (f64 : Nat → ℝ) (u : UnitFac) (snapshot : String) (b : Block)
    (ptypes : List Nat) : Except ReadErr (List (Option (List ℝ))) :=
  (fnameFormat d.exists_ snapshot).bind fun r =>
  (header d r.1).bind fun hd =>
    let total := (ptypes.map fun i => hd.nall.getD i 0).sum
    (idType d f64 u r.1 b ptypes).bind fun _ =>
    (ptypes.foldlM (readType d f64 u snapshot r.2 hd b)
      ⟨0, List.replicate total (some (List.replicate b.comps 0))⟩).bind fun s =>
    if s.offset ≠ total then .error .exception else .ok s.rows

end Verif.Gadget
