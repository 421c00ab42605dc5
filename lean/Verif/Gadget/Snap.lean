import Mathlib.Data.Nat.Basic

/-!
# Model of the reading of binary snapshots

`snapshot_header`, `find_block`, `read_block` (`cosmic_profiles/gadget/readsnap.py`), on the level of
bytes, for a little-endian host.  A file is a list of bytes (numbers below 256).  Floating-point numbers
are given by their bit patterns.  For a particle type (`parttype >= 0`), the default arguments and the
blocks POS, VEL, ID and MASS, as used by `readgadget.py`.
-/

namespace Verif.Gadget

/-- Exceptions of readsnap.py and readgadget.py; `sys.exit` raises `SystemExit`. -/
inductive ReadErr | systemExit | indexError | valueError | exception | unboundLocalError
  deriving DecidableEq, Repr

/-! ## Bytes -/

/-- Little-endian decoding. -/
def decLE : List Nat → Nat
  | [] => 0
  | b :: bs => b + 256 * decLE bs

/-- A number in a file as seen by numpy, followed by `byteswap` if `swap`. -/
def dec (swap : Bool) (bs : List Nat) : Nat := decLE (if swap then bs.reverse else bs)

/-- `np.fromfile(f, dtype, count)`: up to `count` complete items of `w` bytes. -/
def items (w : Nat) : Nat → List Nat → List (List Nat)
  | 0, _ => []
  | n + 1, bs => if w ≤ bs.length then bs.take w :: items w n (bs.drop w) else []

/-- `(np.fromfile(f, dtype, count=1))[0]` at position `pos`: bytes of one item. -/
def scalarAt (file : List Nat) (pos w : Nat) : Except ReadErr (List Nat) :=
  match items w 1 (file.drop pos) with
  | b :: _ => .ok b
  | [] => .error .indexError

/-- `np.fromfile(f, dtype, count=n)` at position `pos`, decoded. -/
def arrayAt (swap : Bool) (file : List Nat) (pos w n : Nat) : List Nat :=
  (items w n (file.drop pos)).map (dec swap)

/-! ## Header -/

/-- `snapshot_header`: contents of the header (raw bits for floating-point numbers). -/
structure Header where
  npart : List Nat
  massarr : List Nat
  time : Nat
  redshift : Nat
  sfr : Nat
  feedback : Nat
  nall : List Nat
  cooling : Nat
  filenum : Nat
  boxsize : Nat
  omegaM : Nat
  omegaL : Nat
  hubble : Nat
  deriving DecidableEq, Repr

/-- Format (2 or 1) and byte order, readsnap.py:49-66. -/
def fileKind (file : List Nat) : Except ReadErr (Bool × Bool) :=
  (scalarAt file 0 4).bind fun b =>
    if dec false b = 8 then .ok (true, false)
    else if dec false b = 256 then .ok (false, false)
    else if dec true b = 8 then .ok (true, true)
    else if dec true b = 256 then .ok (false, true)
    else .error .systemExit

/-- A scalar of the header, byteswapped if necessary. -/
def field (swap : Bool) (file : List Nat) (pos w : Nat) : Except ReadErr Nat :=
  (scalarAt file pos w).map (dec swap)

/-- Fields of the header from position `p`, readsnap.py:71-101. -/
def fields (swap : Bool) (file : List Nat) (p : Nat) : Except ReadErr Header :=
  (field swap file (p + 72) 8).bind fun time => (field swap file (p + 80) 8).bind fun redshift =>
  (field swap file (p + 88) 4).bind fun sfr => (field swap file (p + 92) 4).bind fun feedback =>
  (field swap file (p + 120) 4).bind fun cooling => (field swap file (p + 124) 4).bind fun filenum =>
  (field swap file (p + 128) 8).bind fun boxsize => (field swap file (p + 136) 8).bind fun omegaM =>
  (field swap file (p + 144) 8).bind fun omegaL => (field swap file (p + 152) 8).map fun hubble =>
    { npart := arrayAt swap file p 4 6, massarr := arrayAt swap file (p + 24) 8 6, time, redshift, sfr,
      feedback, nall := arrayAt swap file (p + 96) 4 6, cooling, filenum, boxsize, omegaM, omegaL, hubble }

/-- `snapshot_header(filename)`, readsnap.py:35-101: format, byte order, contents. -/
def snapshotHeader (file : List Nat) : Except ReadErr (Bool × Bool × Header) :=
  (fileKind file).bind fun k => (fields k.2 file (if k.1 then 20 else 4)).map fun h => (k.1, k.2, h)

/-! ## Blocks -/

/-- Whether the block at `pos` is the requested one, readsnap.py:118-127.  In format 2 a `str` is
compared with `bytes`, which is false in Python 3. -/
def isRequested (fmt2 : Bool) (cur num : Nat) : Bool := if fmt2 then false else decide (cur = num)

/-- In format 2 the name record (16 bytes) is skipped, readsnap.py:119-123. -/
def blockStart (fmt2 : Bool) (pos : Nat) : Nat := if fmt2 then pos + 16 else pos

theorem le_blockStart (fmt2 : Bool) (pos : Nat) : pos ≤ blockStart fmt2 pos := by
  unfold blockStart; split <;> omega

/-- The loop of `find_block`, readsnap.py:117-156, at position `pos` and block number `cur`: offset and
size of the data. -/
def findFrom (file : List Nat) (fmt2 swap : Bool) (num pos cur : Nat) : Except ReadErr (Nat × Nat) :=
  if _h : pos < file.length then
    let start := blockStart fmt2 pos
    match scalarAt file start 4 with
    | .error e => .error e
    | .ok b =>
      let size := dec swap b
      if isRequested fmt2 cur num then .ok (start + 4, size)
      else match scalarAt file (start + 4 + size) 4 with
        | .error e => .error e
        | .ok b' =>
          if size ≠ dec swap b' then .error .systemExit
          else findFrom file fmt2 swap num (start + 4 + size + 4) (cur + 1)
  else .error .systemExit
termination_by file.length - pos
decreasing_by
  have := le_blockStart fmt2 pos
  omega

/-- `find_block`, readsnap.py:105-164. -/
def findBlock (file : List Nat) (fmt2 swap : Bool) (num : Nat) : Except ReadErr (Nat × Nat) :=
  findFrom file fmt2 swap num 0 1

/-! ## Data -/

/-- The blocks which readgadget.py asks for, readgadget.py:82-101. -/
inductive Block | pos | vel | id | mass
  deriving DecidableEq, Repr

/-- `block_num`, readsnap.py:226-245. -/
def Block.num : Block → Nat
  | .pos => 2
  | .vel => 3
  | .id => 4
  | .mass => 5

/-- Bytes per number and numbers per particle; IDs are taken to have four bytes at first. -/
def Block.width : Block → Nat
  | .id => 4
  | _ => 8
/-- Numbers per particle. -/
def Block.comps : Block → Nat
  | .pos => 3
  | .vel => 3
  | _ => 1

/-- `data_for_type[j]`, readsnap.py:221-246: the mass block only has types without an entry in the mass
table.  Simplification: bit pattern 0 is the only one of a vanishing mass, and masses are not
negative. -/
def hasData (b : Block) (massarr : List Nat) (j : Nat) : Bool :=
  match b with
  | .mass => massarr.getD j 0 = 0
  | _ => true

/-- `cur_species_offset[j]` (and `curpartnum` for `j = 6`), readsnap.py:338-343. -/
def speciesOffset (b : Block) (massarr npart : List Nat) (j : Nat) : Nat :=
  ((List.range j).map fun i => if hasData b massarr i then npart.getD i 0 else 0).sum

/-- The numbers of one particle. -/
def particle (swap : Bool) (w comps : Nat) (bs : List Nat) : List Nat := (items w comps bs).map (dec swap)

/-- Conversion to the type of `data` on assignment: IDs are stored with four bytes. -/
def store (b : Block) (x : List Nat) : List Nat := if b = .id then x.map (· % 2 ^ 32) else x

/-- `data[lo:lo+n] = xs`: the slice is clipped to the array; lengths must agree unless there is
exactly one value. -/
def assignSlice {α : Type} (data : List (Option α)) (lo n : Nat) (xs : List α) : Except ReadErr (List (Option α)) :=
  let m := min n (data.length - lo)
  if xs.length = m then .ok (data.take lo ++ xs.map some ++ data.drop (lo + m))
  else match xs with
    | [x] => .ok (data.take lo ++ List.replicate m (some x) ++ data.drop (lo + m))
    | _ => .error .valueError

/-- State of the loop over files: next position, bytes per number (fixed in the first pass), data. -/
structure Loop where
  next : Nat
  width : Nat
  data : List (Option (List Nat))

/-- One pass of the loop over files, readsnap.py:325-383, for the file `file` with particle numbers
`npart`. -/
def readOne (b : Block) (massarr : List Nat) (ptype : Nat) (fmt2 swap : Bool) (first : Bool)
    (npart : List Nat) (file : List Nat) (s : Loop) : Except ReadErr Loop :=
  let total := speciesOffset b massarr npart 6
  let n := npart.getD ptype 0
  (findBlock file fmt2 swap b.num).bind fun os =>
    let w := if first ∧ b = .id ∧ os.2 = s.width * total * 2 then 8 else s.width
    if w * b.comps * total ≠ os.2 then .error .systemExit
    else
      let raw := items (w * b.comps) n
        (file.drop (os.1 + speciesOffset b massarr npart ptype * (w * b.comps)))
      let cur := raw.map fun bs => store b (particle swap w b.comps bs)
      (assignSlice s.data s.next n cur).map fun data => ⟨s.next + n, w, data⟩

/-- `sys.exit()` in `snapshot_header` or `find_block` if a file is missing. -/
def openFile (fs : String → Option (List Nat)) (name : String) : Except ReadErr (List Nat) :=
  match fs name with
  | some f => .ok f
  | none => .error .systemExit

/-- The first file, readsnap.py:194-202: if there is none, the message about it mentions a variable which is not yet set,
so that Python raises UnboundLocalError before `sys.exit()` is reached. -/
def openFirst (fs : String → Option (List Nat)) (name : String) : Except ReadErr (List Nat) :=
  match fs name with
  | some f => .ok f
  | none => .error .unboundLocalError

/-- The passes after the first one, for files `i, i+1, …`. -/
def readRest (fs : String → Option (List Nat)) (base : String) (b : Block) (massarr : List Nat) (ptype : Nat)
    (fmt2 swap : Bool) : List Nat → Loop → Except ReadErr Loop
  | [], s => .ok s
  | i :: is, s =>
    (openFile fs (base ++ "." ++ toString i)).bind fun file =>
    (snapshotHeader file).bind fun h =>
    (readOne b massarr ptype fmt2 swap false h.2.2.npart file s).bind fun s =>
      readRest fs base b massarr ptype fmt2 swap is s

/-- `read_block(filename, block, parttype)`, readsnap.py:169-388, for a particle type; the multiplication
of velocities with the square root of the scale factor is left to the caller (see `velFactor`).
`none` in the result is an uninitialised entry. -/
def readBlock (fs : String → Option (List Nat)) (base : String) (b : Block) (ptype : Nat) :
    Except ReadErr (List (Option (List Nat))) :=
  let single := (fs base).isSome
  let name := if single then base else base ++ ".0"
  (openFirst fs name).bind fun file =>
  (snapshotHeader file).bind fun h =>
    let hd := h.2.2
    let count := if single then hd.npart.getD ptype 0 else hd.nall.getD ptype 0
    if b = .mass ∧ hd.massarr.getD ptype 0 ≠ 0 then
      .ok (List.replicate count (some [hd.massarr.getD ptype 0]))
    else
      let start : Loop := ⟨0, b.width, List.replicate count none⟩
      if hd.filenum = 0 then .ok start.data
      else
        (readOne b hd.massarr ptype h.1 h.2.1 true hd.npart file start).bind fun s =>
        if single then .ok s.data
        else (readRest fs base b hd.massarr ptype h.1 h.2.1 (List.range' 1 (hd.filenum - 1)) s).map
          fun s => s.data

end Verif.Gadget
