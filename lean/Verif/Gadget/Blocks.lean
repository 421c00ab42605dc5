import Verif.Gadget.Snap
import Mathlib.Logic.Function.Basic

/-!
# Model of `read_block` for all blocks, all particle types at once and all options

`read_block(filename, block, parttype, arepo=…, no_masses=…, nall=…)` (`cosmic_profiles/gadget/readsnap.py:166-388`);
`Verif/Gadget/Snap.lean` has the part of it which `readgadget.py` uses.  Conventions as there.
-/

namespace Verif.Gadget

/-- The blocks known, readsnap.py:224-305. -/
inductive BlockName
  | pos | vel | id | acce | mass | u | rho | vol | cmce | area | nfac | ne | nh | hsml | sfr | mhi | temp | age | z | bhma
  | bhmd
  deriving DecidableEq, Repr

/-- All of them, in the order of readsnap.py:224-305. -/
def BlockName.all : List BlockName :=
  [.pos, .vel, .id, .acce, .mass, .u, .rho, .vol, .cmce, .area, .nfac, .ne, .nh, .hsml, .sfr, .mhi, .temp, .age, .z,
    .bhma, .bhmd]

/-- The argument `block`. -/
def BlockName.str : BlockName → String
  | .pos => "POS " | .vel => "VEL " | .id => "ID  " | .acce => "ACCE" | .mass => "MASS" | .u => "U   " | .rho => "RHO "
  | .vol => "VOL " | .cmce => "CMCE" | .area => "AREA" | .nfac => "NFAC" | .ne => "NE  " | .nh => "NH  "
  | .hsml => "HSML" | .sfr => "SFR " | .mhi => "MHI " | .temp => "TEMP" | .age => "AGE " | .z => "Z   "
  | .bhma => "BHMA" | .bhmd => "BHMD"

/-- Unknown names lead to `sys.exit()`, readsnap.py:303-305. -/
def parseBlock (s : String) : Option BlockName := BlockName.all.find? fun b => b.str = s

/-- Options of `read_block`.  `nall` is the number of particles of each type in all files, to be taken from the header if
it is zero for all types. -/
structure Opts where
  arepo : Nat := 0
  noMasses : Bool := false
  nall : List Nat := [0, 0, 0, 0, 0, 0]

/-- `blockadd`, readsnap.py:174-186. -/
def Opts.add (o : Opts) : Nat := if o.arepo = 1 then 1 else if o.arepo = 2 then 4 else 0

/-- `blocksub`, readsnap.py:187-189. -/
def Opts.sub (o : Opts) : Nat := if o.noMasses then 1 else 0

/-- `block_num`, readsnap.py:224-302. -/
def blockNum (o : Opts) : BlockName → Nat
  | .pos => 2
  | .vel => 3
  | .id => 4
  | .acce => 5
  | .mass => 5
  | .u => 6 - o.sub
  | .rho => 7 - o.sub
  | .vol => 8 - o.sub
  | .cmce => 9 - o.sub
  | .area => 10 - o.sub
  | .nfac => 11 - o.sub
  | .ne => 8 + o.add - o.sub
  | .nh => 9 + o.add - o.sub
  | .hsml => 10 + o.add - o.sub
  | .sfr => 11 + o.add - o.sub
  | .mhi => 12 + o.add - o.sub
  | .temp => 13 + o.add - o.sub
  | .age => 12 + o.add - o.sub
  | .z => 13 + o.add - o.sub
  | .bhma => 14 + o.add - o.sub
  | .bhmd => 15 + o.add - o.sub

/-- Bytes per number (`dt`); IDs are taken to have four bytes at first. -/
def BlockName.width : BlockName → Nat
  | .id => 4
  | _ => 8

/-- Numbers per particle (`dt`). -/
def BlockName.comps : BlockName → Nat
  | .pos => 3
  | .vel => 3
  | .acce => 3
  | .cmce => 3
  | _ => 1

/-- `data_for_type[j]`, readsnap.py:221-302. -/
def dataFor (massarr : List Nat) (b : BlockName) (j : Nat) : Bool :=
  match b with
  | .pos => true
  | .vel => true
  | .id => true
  | .acce => true
  | .mass => massarr.getD j 0 = 0
  | .age => j = 4
  | .z => j = 0 ∨ j = 4
  | .bhma => j = 5
  | .bhmd => j = 5
  | _ => j = 0

/-- `actual_data_for_type[j]`, readsnap.py:308-316; `none` is `parttype=-1`. -/
def actualFor (massarr : List Nat) (b : BlockName) (ptype : Option Nat) (j : Nat) : Bool :=
  match ptype with
  | some t => j = t
  | none => b = .mass ∨ dataFor massarr b j

/-- Particles of types below `j` in a list of counts, among those of `types`: `species_offset`, readsnap.py:318-326 and
`cur_species_offset`, readsnap.py:338-343. -/
def offsetOf (types : Nat → Bool) (count : List Nat) (j : Nat) : Nat :=
  ((List.range j).map fun i => if types i then count.getD i 0 else 0).sum

/-- `data[lo:lo+n] = x` with a number. -/
def assignConst {α : Type} (data : List (Option α)) (lo n : Nat) (x : α) : List (Option α) :=
  let m := min n (data.length - lo)
  data.take lo ++ List.replicate m (some x) ++ data.drop (lo + m)

/-- State of the loop over files: `species_offset`, bytes per number, data. -/
structure AllLoop where
  next : Nat → Nat
  width : Nat
  data : List (Option (List Nat))

/-- What is being read. -/
structure Request where
  block : BlockName
  ptype : Option Nat
  massarr : List Nat
  num : Nat

/-- Conversion to the type of `data`, fixed before the size of IDs is known. -/
def storeRow (b : BlockName) (x : List Nat) : List Nat := if b = .id then x.map (· % 2 ^ 32) else x

/-- The assignment for type `j`, readsnap.py:372-379. -/
def fillData (q : Request) (npart : List Nat) (cur : List (List Nat)) (s : AllLoop) (j : Nat) :
    Except ReadErr (List (Option (List Nat))) :=
  if q.block = .mass ∧ q.massarr.getD j 0 ≠ 0 then .ok (assignConst s.data (s.next j) (npart.getD j 0) [q.massarr.getD j 0])
  else match q.ptype with
    | some _ => assignSlice s.data (s.next j) (npart.getD j 0) cur
    | none => assignSlice s.data (s.next j) (npart.getD j 0)
        ((cur.drop (offsetOf (dataFor q.massarr q.block) npart j)).take (npart.getD j 0))

/-- Body of the loop over types, readsnap.py:370-380, for type `j`. -/
def fillType (q : Request) (npart : List Nat) (cur : List (List Nat)) (s : AllLoop) (j : Nat) : Except ReadErr AllLoop :=
  if actualFor q.massarr q.block q.ptype j then
    (fillData q npart cur s j).map fun d =>
      { s with data := d, next := Function.update s.next j (s.next j + npart.getD j 0) }
  else .ok s

/-- One pass of the loop over files, readsnap.py:332-382. -/
def passFile (q : Request) (fmt2 swap first : Bool) (npart file : List Nat) (s : AllLoop) : Except ReadErr AllLoop :=
  let types := dataFor q.massarr q.block
  let total := offsetOf types npart 6
  (findBlock file fmt2 swap q.num).bind fun os =>
    let w := if first ∧ q.block = .id ∧ os.2 = s.width * total * 2 then 8 else s.width
    let size := w * q.block.comps
    if size * total ≠ os.2 then .error .systemExit
    else
      let n := match q.ptype with
        | some t => npart.getD t 0
        | none => total
      let skip := match q.ptype with
        | some t => offsetOf types npart t
        | none => 0
      let cur := (items size n (file.drop (os.1 + skip * size))).map fun bs =>
        storeRow q.block (particle swap w q.block.comps bs)
      (List.range 6).foldlM (fillType q npart cur) { s with width := w }

/-- The passes after the first one. -/
def passRest (fs : String → Option (List Nat)) (base : String) (q : Request) (fmt2 swap : Bool) :
    List Nat → AllLoop → Except ReadErr AllLoop
  | [], s => .ok s
  | i :: is, s =>
    (openFile fs (base ++ "." ++ toString i)).bind fun file =>
    (snapshotHeader file).bind fun h =>
    (passFile q fmt2 swap false h.2.2.npart file s).bind fun s => passRest fs base q fmt2 swap is s

/-- `parttype`, readsnap.py:191-192. -/
def partType (t : Int) : Except ReadErr (Option Nat) :=
  if t = -1 then .ok none else if 0 ≤ t ∧ t ≤ 5 then .ok (some t.toNat) else .error .systemExit

/-- `read_block`, readsnap.py:169-388, without the factor of velocities. -/
def readAny (fs : String → Option (List Nat)) (base block : String) (parttype : Int) (o : Opts) :
    Except ReadErr (List (Option (List Nat))) :=
  (partType parttype).bind fun ptype =>
  let single := (fs base).isSome
  let name := if single then base else base ++ ".0"
  (openFirst fs name).bind fun file =>
  (snapshotHeader file).bind fun h =>
    let hd := h.2.2
    let nall := if o.nall = [0, 0, 0, 0, 0, 0] then hd.nall else o.nall
    let count := if single then hd.npart else nall
    match parseBlock block with
    | none => .error .systemExit
    | some b =>
      match ptype with
      | some t =>
        if b = .mass ∧ hd.massarr.getD t 0 ≠ 0 then .ok (List.replicate (count.getD t 0) (some [hd.massarr.getD t 0]))
        else if dataFor hd.massarr b t = false then .error .systemExit
        else go hd h.1 h.2.1 single count file b ptype
      | none => go hd h.1 h.2.1 single count file b ptype
where
  /-- From the allocation of `data` on, readsnap.py:318-388. -/
  go (hd : Header) (fmt2 swap single : Bool) (count file : List Nat) (b : BlockName) (ptype : Option Nat) :
      Except ReadErr (List (Option (List Nat))) :=
    let q : Request := ⟨b, ptype, hd.massarr, blockNum o b⟩
    let actual := actualFor hd.massarr b ptype
    let start : AllLoop := ⟨offsetOf actual count, b.width, List.replicate (offsetOf actual count 6) none⟩
    if hd.filenum = 0 then .ok start.data
    else
      (passFile q fmt2 swap true hd.npart file start).bind fun s =>
      if single then .ok s.data
      else (passRest fs base q fmt2 swap (List.range' 1 (hd.filenum - 1)) s).map fun s => s.data

end Verif.Gadget
