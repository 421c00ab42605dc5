import Verif.Gadget.SnapProps

/-!
# Binary snapshots of format 1 as written by Gadget (specification)
-/

namespace Verif.Gadget

/-- A particle; floating-point numbers by bit pattern. -/
structure Part where
  pos : List Nat
  vel : List Nat
  id : Nat
  mass : Nat

/-- What a snapshot stores of a particle in a block. -/
def Part.stored (p : Part) : Block → List Nat
  | .pos => p.pos
  | .vel => p.vel
  | .id => [p.id]
  | .mass => [p.mass]

/-- What a user wants to know: the mass is in the mass table if there is an entry for the type. -/
def Part.value (p : Part) (massarr : List Nat) (ptype : Nat) (b : Block) : List Nat :=
  if b = .mass ∧ massarr.getD ptype 0 ≠ 0 then [massarr.getD ptype 0] else p.stored b

/-- One file: header, particles of each of the six types, last bytes of the header. -/
structure Snap where
  header : Header
  species : List (List Part)
  pad : List Nat

/-- Bytes per number: eight except for IDs. -/
def bytesPer (idw : Nat) : Block → Nat
  | .id => idw
  | _ => 8

/-- Data of a block: the particles of all types, one type after the other; in the mass block only those
of types without an entry in the mass table. -/
def Snap.block (f : Snap) (big : Bool) (idw : Nat) (b : Block) : List Nat :=
  (List.range 6).flatMap fun j =>
    if b = .mass ∧ f.header.massarr.getD j 0 ≠ 0 then []
    else (f.species.getD j []).flatMap fun p => (p.stored b).flatMap (enc big (bytesPer idw b))

/-- Records of the file.  There is no mass block if it were empty. -/
def Snap.records (f : Snap) (big : Bool) (idw : Nat) : List (List Nat) :=
  [headerBytes big f.header f.pad, f.block big idw .pos, f.block big idw .vel, f.block big idw .id] ++
    (if f.block big idw .mass = [] then [] else [f.block big idw .mass])

/-- The file: all records with their markers. -/
def Snap.bytes (f : Snap) (big : Bool) (idw : Nat) : List Nat := ((f.records big idw).map (record big)).flatten

/-- Numbers fit into their fields and the header is about these particles. -/
structure Snap.Valid (f : Snap) (idw : Nat) : Prop where
  header : f.header.Valid
  pad : f.pad.length = 96
  npart : ∀ j, f.header.npart.getD j 0 = (f.species.getD j []).length
  comps : ∀ ps ∈ f.species, ∀ p ∈ ps, p.pos.length = 3 ∧ p.vel.length = 3
  vals : ∀ ps ∈ f.species, ∀ p ∈ ps, (∀ x ∈ p.pos, x < 2 ^ 64) ∧ (∀ x ∈ p.vel, x < 2 ^ 64) ∧
    p.id < 256 ^ idw ∧ p.mass < 2 ^ 64
  small : ∀ big b, (f.block big idw b).length < 2 ^ 32

/-- The files of a snapshot: the same mass table everywhere, number of files and of particles in the
header. -/
structure IsSnapshot (files : List Snap) (idw : Nat) : Prop where
  valid : ∀ f ∈ files, f.Valid idw
  massarr : ∀ f ∈ files, ∀ g ∈ files, f.header.massarr = g.header.massarr
  filenum : ∀ f ∈ files, f.header.filenum = files.length
  nall : ∀ f ∈ files, ∀ j, f.header.nall.getD j 0 = (files.map fun g => (g.species.getD j []).length).sum

/-- Particles of a type in all files. -/
def allOf (files : List Snap) (j : Nat) : List Part := files.flatMap fun f => f.species.getD j []

end Verif.Gadget
