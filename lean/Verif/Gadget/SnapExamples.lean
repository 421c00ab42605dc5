import Verif.Gadget.HdfProps

/-!
# Snapshots: counterexamples and examples (C57, C58, C91)
-/

namespace Verif.Gadget

/-! ## Binary files -/

/-- A particle. -/
def ptc (x id m : Nat) : Part := ⟨[x, x + 1, x + 2], [0, 0, 0], id, m⟩

/-- Header of one of `n` files; type 1 has an entry in the mass table. -/
def hdr (n : Nat) (npart nall : List Nat) : Header :=
  { npart, massarr := [0, 7, 0, 0, 0, 0], time := 1, redshift := 0, sfr := 0, feedback := 0, nall, cooling := 0,
    filenum := n, boxsize := 1, omegaM := 1, omegaL := 1, hubble := 1 }

/-- A file with particles of types 1 and 4. -/
def snapFile (n : Nat) (dm stars : List Part) (nall : List Nat) : Snap :=
  ⟨hdr n [0, dm.length, 0, 0, stars.length, 0] nall, [[], dm, [], [], stars, []], List.replicate 96 0⟩

/-- Bounds for particles of the examples. -/
def Part.Small (p : Part) (idw : Nat) : Prop :=
  p.pos.length = 3 ∧ p.vel.length = 3 ∧ (∀ x ∈ p.pos, x < 2 ^ 64) ∧ (∀ x ∈ p.vel, x < 2 ^ 64) ∧
    p.id < 256 ^ idw ∧ p.mass < 2 ^ 64

theorem snapFile_valid (n : Nat) (dm stars : List Part) (nall : List Nat) (idw : Nat) (hidw : idw ≤ 8) (hn : n < 2 ^ 32)
    (hnall : nall.length = 6 ∧ ∀ x ∈ nall, x < 2 ^ 32) (hdm : dm.length < 2 ^ 26) (hst : stars.length < 2 ^ 26)
    (h : ∀ p ∈ dm ++ stars, p.Small idw) : (snapFile n dm stars nall).Valid idw := by
  have hsp : ∀ ps ∈ (snapFile n dm stars nall).species, ∀ p ∈ ps, p.Small idw := by
    intro ps hps p hp
    simp only [snapFile, List.mem_cons, List.not_mem_nil, or_false] at hps
    rcases hps with rfl | rfl | rfl | rfl | rfl | rfl
    · simp at hp
    · exact h p (List.mem_append_left _ hp)
    · simp at hp
    · simp at hp
    · exact h p (List.mem_append_right _ hp)
    · simp at hp
  refine ⟨⟨?_, ?_, ?_, ?_, ?_⟩, by simp [snapFile], ?_, ?_, ?_, ?_⟩
  · refine ⟨rfl, ?_⟩
    intro x hx
    simp only [snapFile, hdr, List.mem_cons, List.not_mem_nil, or_false] at hx
    rcases hx with rfl | rfl | rfl | rfl | rfl | rfl <;> omega
  · refine ⟨rfl, ?_⟩
    intro x hx
    simp only [snapFile, hdr, List.mem_cons, List.not_mem_nil, or_false] at hx
    rcases hx with rfl | rfl | rfl | rfl | rfl | rfl <;> norm_num
  · exact hnall
  · simp only [snapFile, hdr]; norm_num; omega
  · simp only [snapFile, hdr]; norm_num
  · intro j
    match j with
    | 0 => rfl
    | 1 => rfl
    | 2 => rfl
    | 3 => rfl
    | 4 => rfl
    | 5 => rfl
    | j + 6 => rfl
  · intro ps hps p hp
    exact ⟨(hsp ps hps p hp).1, (hsp ps hps p hp).2.1⟩
  · intro ps hps p hp
    exact (hsp ps hps p hp).2.2
  · intro big b
    have key : ∀ l : List Part, (∀ p ∈ l, p.Small idw) → l.length < 2 ^ 26 →
        (l.flatMap fun p => (p.stored b).flatMap (enc big (bytesPer idw b))).length ≤ 24 * l.length := by
      intro l hl _
      rw [List.length_flatMap]
      calc _ ≤ (l.map fun _ => 24).sum := by
            apply List.sum_le_sum
            intro p hp
            obtain ⟨h1, h2, -⟩ := hl p hp
            rw [List.length_flatMap]
            cases b <;> (simp [length_enc, Part.stored, bytesPer, h1, h2]; try omega)
        _ = 24 * l.length := by simp [mul_comm]
    have k1 := key dm (fun p hp => h p (List.mem_append_left _ hp)) hdm
    have k2 := key stars (fun p hp => h p (List.mem_append_right _ hp)) hst
    have e : (List.range 6) = [0, 1, 2, 3, 4, 5] := rfl
    unfold Snap.block
    rw [e]
    simp only [List.flatMap_cons, List.flatMap_nil, List.length_append]
    have z : ∀ (P : Prop) [Decidable P], (if P then [] else
        ([] : List Part).flatMap fun p => (p.stored b).flatMap (enc big (bytesPer idw b))).length = 0 := by
      intro P _; split <;> simp
    have s : ∀ (P : Prop) [Decidable P] (l : List Nat), (if P then [] else l).length ≤ l.length := by
      intro P _ l; split <;> simp
    simp only [snapFile, List.getD_cons_zero, List.getD_cons_succ, z]
    have s1 := s (b = .mass ∧ (hdr n [0, dm.length, 0, 0, stars.length, 0] nall).massarr.getD 1 0 ≠ 0)
      (dm.flatMap fun p => (p.stored b).flatMap (enc big (bytesPer idw b)))
    have s2 := s (b = .mass ∧ (hdr n [0, dm.length, 0, 0, stars.length, 0] nall).massarr.getD 4 0 ≠ 0)
      (stars.flatMap fun p => (p.stored b).flatMap (enc big (bytesPer idw b)))
    simp only [List.length_nil, Nat.add_zero, Nat.zero_add] at *
    omega

theorem ptc_small (x id m idw : Nat) (hx : x < 2 ^ 60) (hid : id < 256 ^ idw) (hm : m < 2 ^ 64) :
    (ptc x id m).Small idw := by
  refine ⟨rfl, rfl, ?_, ?_, hid, hm⟩
  · intro y hy
    simp only [ptc, List.mem_cons, List.not_mem_nil, or_false] at hy
    rcases hy with rfl | rfl | rfl <;> omega
  · intro y hy
    simp only [ptc, List.mem_cons, List.not_mem_nil, or_false] at hy
    rcases hy with rfl | rfl | rfl <;> norm_num

/-- A snapshot in two files; stars are in the first one only. -/
def fileA : Snap := snapFile 2 [ptc 1 100 0, ptc 5 101 0] [ptc 9 102 3] [0, 3, 0, 0, 1, 0]
/-- The second file. -/
def fileB : Snap := snapFile 2 [ptc 20 103 0] [] [0, 3, 0, 0, 1, 0]

/-- A disk with the two files. -/
def diskAB (big : Bool) : Disk where
  bin := fun n => if n = "s.0" then some (fileA.bytes big 4) else if n = "s.1" then some (fileB.bytes big 4) else none
  h5 := fun _ => none

theorem fileA_valid : fileA.Valid 4 := by
  refine snapFile_valid _ _ _ _ _ (by norm_num) (by norm_num) (by simp) (by simp) (by simp) ?_
  intro p hp
  simp only [List.cons_append, List.nil_append, List.mem_cons, List.not_mem_nil, or_false] at hp
  rcases hp with rfl | rfl | rfl <;> exact ptc_small _ _ _ _ (by norm_num) (by norm_num) (by norm_num)

theorem fileB_valid : fileB.Valid 4 := by
  refine snapFile_valid _ _ _ _ _ (by norm_num) (by norm_num) (by simp) (by simp) (by simp) ?_
  intro p hp
  simp only [List.append_nil, List.mem_singleton] at hp
  subst hp
  exact ptc_small _ _ _ _ (by norm_num) (by norm_num) (by norm_num)

theorem snapshotAB : IsSnapshot [fileA, fileB] 4 := by
  refine ⟨?_, ?_, ?_, ?_⟩
  · intro f hf
    simp only [List.mem_cons, List.not_mem_nil, or_false] at hf
    rcases hf with rfl | rfl
    · exact fileA_valid
    · exact fileB_valid
  · intro f hf g hg
    simp only [List.mem_cons, List.not_mem_nil, or_false] at hf hg
    rcases hf with rfl | rfl <;> rcases hg with rfl | rfl <;> rfl
  · intro f hf
    simp only [List.mem_cons, List.not_mem_nil, or_false] at hf
    rcases hf with rfl | rfl <;> rfl
  · intro f hf j
    simp only [List.mem_cons, List.not_mem_nil, or_false] at hf
    match j with
    | 0 => rcases hf with rfl | rfl <;> rfl
    | 1 => rcases hf with rfl | rfl <;> rfl
    | 2 => rcases hf with rfl | rfl <;> rfl
    | 3 => rcases hf with rfl | rfl <;> rfl
    | 4 => rcases hf with rfl | rfl <;> rfl
    | 5 => rcases hf with rfl | rfl <;> rfl
    | j + 6 => rcases hf with rfl | rfl <;> rfl

theorem onDiskAB (big : Bool) : OnDisk (diskAB big) "s" big 4 [fileA, fileB] := by
  refine .several _ (by simp) (by simp [diskAB]) rfl ?_
  intro k hk
  match k, hk with
  | 0, _ =>
    have : "s" ++ "." ++ toString 0 = "s.0" := rfl
    simp only [this, diskAB, if_true, List.getElem_cons_zero]
  | 1, _ =>
    have : "s" ++ "." ++ toString 1 = "s.1" := by decide
    simp only [this, diskAB, if_true, List.getElem_cons_succ, List.getElem_cons_zero]
    rw [if_neg (by decide)]

/-- IDs of both types from the two files. -/
example (big : Bool) (f64 : Nat → ℝ) (u : UnitFac) :
    readAll (diskAB big) f64 u "s" .id [4, 1] = .ok [some [102], some [100], some [101], some [103]] := by
  have := C57_binary_partial (diskAB big) "s" big 4 (Or.inl rfl) [fileA, fileB] (onDiskAB big) snapshotAB
    [0, 7, 0, 0, 0, 0] (by intro f hf; simp at hf; rcases hf with rfl | rfl <;> rfl) fileA rfl f64 u
    .id [4, 1] (by simp) (by simp)
    (fun _ => ⟨by simp, by cases big <;> decide, by
      intro pt hpt p hp
      simp only [List.mem_cons, List.not_mem_nil, or_false] at hpt
      rcases hpt with rfl | rfl <;> simp [allOf, fileA, fileB, snapFile] at hp
      · subst hp; simp [ptc]
      · rcases hp with rfl | rfl | rfl <;> simp [ptc]⟩)
    (by simp)
  rw [this]
  simp [allOf, fileA, fileB, snapFile, Part.value, Part.stored, ptc, physical, UnitFac.of]

/-- A file without a mass block ends the reading of masses. -/
theorem readRest_missing (fs : String → Option (List Nat)) (base : String) (big : Bool) (idw : Nat) (massarr : List Nat)
    (pt : Nat) (g : Snap) (hv : g.Valid idw) (hm : g.block big idw .mass = []) (i : Nat) (is : List Nat)
    (hfs : fs (base ++ "." ++ toString i) = some (g.bytes big idw)) (s : Loop) :
    readRest fs base .mass massarr pt false big (i :: is) s = .error .systemExit := by
  have hrec : (g.records big idw).length = 4 := by simp [Snap.records, hm]
  have habs := C55_absent big (g.records big idw) (records_small hv big) 4 (by rw [hrec])
  have hfind : findBlock (g.bytes big idw) false big Block.mass.num = .error .systemExit := habs
  rw [readRest, openFile, hfs]
  simp only [Except.bind, header_bytes hv big, readOne, hfind]

/-- C57 is false: if one of the files has no particles with masses of their own, it has no mass block,
and the masses of the whole snapshot cannot be read. -/
theorem C57_no_mass_block_refuted (big : Bool) : ∃ (d : Disk) (base : String) (files : List Snap),
    OnDisk d base big 4 files ∧ IsSnapshot files 4 ∧
    ∀ f64 u, readAll d f64 u base .mass [4] = .error .systemExit := by
  refine ⟨diskAB big, "s", [fileA, fileB], onDiskAB big, snapshotAB, ?_⟩
  intro f64 u
  obtain ⟨f, rest, name, hf, hname, hbin, hname'⟩ := (onDiskAB big).first
  simp only [List.cons.injEq] at hf
  obtain ⟨rfl, rfl⟩ := hf
  have hheader : header (diskAB big) name =
      .ok ⟨fileA.header.npart, fileA.header.nall, fileA.header.filenum⟩ := by
    unfold header
    rw [C54_stable _ _ _ _ hname]
    simp only [Except.bind, hbin, header_bytes fileA_valid big, Except.map]
  have hbase : (diskAB big).bin "s" = none := by simp [diskAB]
  have h0 : (diskAB big).bin ("s" ++ ".0") = some (fileA.bytes big 4) := by
    have : "s" ++ ".0" = "s.0" := rfl
    simp [this, diskAB]
  have h1 : (diskAB big).bin ("s" ++ "." ++ toString 1) = some (fileB.bytes big 4) := by
    have : "s" ++ "." ++ toString 1 = "s.1" := by decide
    simp only [this, diskAB]
    rw [if_neg (by decide), if_pos trivial]
  have hread : readBlock (diskAB big).bin "s" .mass 4 = .error .systemExit := by
    unfold readBlock
    simp only [hbase, Option.isSome_none, Bool.false_eq_true, if_false, openFirst, openFile, h0, Except.bind,
      header_bytes fileA_valid big]
    have hone := readOne_bytes fileA_valid big .mass 4 (by norm_num) (by intro _; cases big <;> decide)
      (by decide) true ⟨0, Block.mass.width, List.replicate 1 none⟩ (by simp [bytesPer, Block.width])
    have hass := assignSlice_prefix [] ((fileA.species.getD 4 []).map fun p => store .mass (p.stored .mass)) 1
      (by simp [fileA, snapFile])
    simp only [List.map_nil, List.nil_append, List.length_nil, List.length_map] at hass
    rw [hass] at hone
    rw [if_neg (by decide), if_neg (by decide)]
    have hone' : readOne Block.mass fileA.header.massarr 4 false big true fileA.header.npart (fileA.bytes big 4)
        ⟨0, Block.mass.width, List.replicate (fileA.header.nall.getD 4 0) none⟩ = _ := hone
    rw [hone']
    simp only [Except.map]
    have hr : List.range' 1 (fileA.header.filenum - 1) = [1] := rfl
    rw [hr, readRest_missing (diskAB big).bin "s" big 4 fileA.header.massarr 4 fileB fileB_valid
      (by cases big <;> decide) 1 [] h1]
  unfold readAll
  simp only [hname, Except.bind, hheader, idType, reduceCtorEq, if_false, List.foldlM_cons, readType, binaryBlock, hread,
    bind]

/-! ## C58 -/

/-- A file with IDs of eight bytes. -/
def fileL : Snap := snapFile 1 [ptc 1 (2 ^ 32 + 7) 0, ptc 1 7 0] [] [0, 2, 0, 0, 0, 0]

theorem fileL_valid : fileL.Valid 8 := by
  refine snapFile_valid _ _ _ _ _ (by norm_num) (by norm_num) (by simp) (by simp) (by simp) ?_
  intro p hp
  simp only [List.append_nil, List.mem_cons, List.not_mem_nil, or_false] at hp
  rcases hp with rfl | rfl <;> exact ptc_small _ _ _ _ (by norm_num) (by norm_num) (by norm_num)

/-- C58 is false: IDs of eight bytes in a binary file are reduced modulo 2³², so different particles get
the same ID. -/
theorem C58_long_ids_refuted (big : Bool) (f64 : Nat → ℝ) (u : UnitFac) : ∃ (d : Disk) (f : Snap),
    OnDisk d "s" big 8 [f] ∧ IsSnapshot [f] 8 ∧ (f.species.getD 1 []).map Part.id = [2 ^ 32 + 7, 7] ∧
    readAll d f64 u "s" .id [1] = .ok [some [7], some [7]] := by
  let d : Disk := ⟨fun n => if n = "s" then some (fileL.bytes big 8) else none, fun _ => none⟩
  have hd : d.bin "s" = some (fileL.bytes big 8) := by simp [d]
  have hdf : ¬∃ t, "s" = t ++ "hdf5" := by
    rw [← endsHdf5_iff]; decide
  have hs : IsSnapshot [fileL] 8 := by
    refine ⟨?_, ?_, ?_, ?_⟩
    · intro f hf; rw [List.mem_singleton] at hf; subst hf; exact fileL_valid
    · intro f hf g hg; rw [List.mem_singleton] at hf hg; subst hf hg; rfl
    · intro f hf; rw [List.mem_singleton] at hf; subst hf; rfl
    · intro f hf j
      rw [List.mem_singleton] at hf
      subst hf
      match j with
      | 0 => rfl
      | 1 => rfl
      | 2 => rfl
      | 3 => rfl
      | 4 => rfl
      | 5 => rfl
      | j + 6 => rfl
  refine ⟨d, fileL, .single fileL hd hdf, hs, rfl, ?_⟩
  have hname : fnameFormat d.exists_ "s" = .ok ("s", .binary) := by
    unfold fnameFormat
    rw [if_pos (by simp [Disk.exists_, hd]), if_neg (by decide)]
  have hheader : header d "s" = .ok ⟨fileL.header.npart, fileL.header.nall, fileL.header.filenum⟩ := by
    unfold header
    rw [hname]
    simp only [Except.bind, hd, header_bytes fileL_valid big, Except.map]
  have hread := readBlock_single d.bin "s" big 8 (Or.inr rfl) fileL fileL_valid (by decide) hd .id 1 (by norm_num)
    (by intro _ h; exact absurd h (by norm_num)) (by simp)
  have hval : ((fileL.species.getD 1 []).map fun p => some (store .id (p.value fileL.header.massarr 1 .id))) =
      [some [7], some [7]] := by decide
  rw [hval] at hread
  have hblock : binaryBlock d f64 u "s" .id 1 = .ok (.rows [some [7], some [7]]) := by
    unfold binaryBlock
    simp only [hread, Except.bind, hd, Option.isSome_some, if_true, openFirst, openFile, header_bytes fileL_valid big, Except.map]
    have h7 : round53 7 = 7 := round53_of_lt (by norm_num)
    simp [number, velFactor, UnitFac.of, h7]
  unfold readAll
  have hn : fileL.header.nall.getD 1 0 = 2 := rfl
  simp only [hname, Except.bind, hheader, idType, if_true, readField, hblock, Except.map, List.foldlM_cons,
    List.foldlM_nil, readType, bind, pure, Except.pure, List.map_cons, List.map_nil, hn]
  simp [assign]

/-! ## HDF5 files -/

/-- A file with particles of type 1 with the given IDs. -/
noncomputable def h5File (n : Nat) (ids : Option (List Nat)) (mass : ℝ) (count total : Nat) : H5 where
  npart := [0, count, 0, 0, 0, 0]
  nall := [0, total, 0, 0, 0, 0]
  massarr := [0, mass, 0, 0, 0, 0]
  filenum := n
  time := 1
  boxsize := 1
  data := fun _ _ => none
  ids := fun pt => if pt = 1 then ids else none

theorem h5_single (f : H5) : fnameFormat (Disk.exists_ ⟨fun _ => none, fun n => if n = "s.hdf5" then some f else none⟩) "s" =
    .ok ("s.hdf5", .hdf5) := by
  have h1 : ("s" : String) ++ ".0" = "s.0" := rfl
  have h2 : ("s" : String) ++ ".hdf5" = "s.hdf5" := rfl
  unfold fnameFormat
  rw [if_neg (by simp [Disk.exists_]), if_neg (by rw [h1]; simp [Disk.exists_]), if_pos (by rw [h2]; simp [Disk.exists_]), h2]

/-- C58 is false also for HDF5: IDs become floating-point numbers, so IDs above 2⁵³ are rounded and
different particles get the same ID. -/
theorem C58_hdf5_refuted (f64 : Nat → ℝ) (u : UnitFac) : ∃ (d : Disk) (f : H5),
    H5OnDisk d "s" [f] ∧ IsH5Snapshot [f] ∧ f.ids 1 = some [2 ^ 53, 2 ^ 53 + 1] ∧
    readAll d f64 u "s" .id [1] = .ok [some [2 ^ 53], some [2 ^ 53]] := by
  let f := h5File 1 (some [2 ^ 53, 2 ^ 53 + 1]) 0 2 2
  let d : Disk := ⟨fun _ => none, fun n => if n = "s.hdf5" then some f else none⟩
  have hname : fnameFormat d.exists_ "s" = .ok ("s.hdf5", .hdf5) := h5_single f
  have hf : d.h5 "s.hdf5" = some f := by simp [d]
  have hstable := C54_stable _ _ _ _ hname
  refine ⟨d, f, .single f "s.hdf5" hname hf, ?_, rfl, ?_⟩
  · refine ⟨?_, ?_⟩
    · intro g hg; rw [List.mem_singleton] at hg; subst hg; rfl
    · intro g hg j
      rw [List.mem_singleton] at hg
      subst hg
      simp [f, h5File]
  · have hr1 : round53 (2 ^ 53) = 2 ^ 53 := round53_le le_rfl
    have hr2 : round53 (2 ^ 53 + 1) = 2 ^ 53 := by decide
    have hfield : h5Field f u .id 1 = .ok (.rows [some [2 ^ 53], some [2 ^ 53]]) := by
      simp only [h5Field, H5.rows, if_true, f, h5File, Option.map_some, List.map_cons, List.map_nil, hr1, hr2]
      simp [UnitFac.of]
      norm_num
    unfold readAll
    have hn : f.nall.getD 1 0 = 2 := rfl
    have hfn : f.filenum = 1 := rfl
    simp only [hname, Except.bind, header_h5 hstable hf, idType, if_true, readField_h5 hstable hf, readField_h5 hname hf,
      hfield, Except.map, List.foldlM_cons, List.foldlM_nil, readType, bind, pure, Except.pure, List.map_cons,
      List.map_nil, hn, hfn]
    simp [assign]

/-- C57 is false also for HDF5: if a file has no particles of the type (so no dataset, and masses of
their own), the whole snapshot cannot be read. -/
theorem C57_empty_file_refuted (f64 : Nat → ℝ) (u : UnitFac) : ∃ (d : Disk) (f g : H5),
    H5OnDisk d "s" [f, g] ∧ IsH5Snapshot [f, g] ∧ f.ids 1 = some [1, 2] ∧ g.npart.getD 1 0 = 0 ∧
    readAll d f64 u "s" .id [1] = .error .exception := by
  let f := h5File 2 (some [1, 2]) 0 2 2
  let g := h5File 2 none 0 0 2
  let d : Disk := ⟨fun _ => none, fun n => if n = "s.0.hdf5" then some f else if n = "s.1.hdf5" then some g else none⟩
  have e0 : h5Name "s" 0 = "s.0.hdf5" := by decide
  have e1 : h5Name "s" 1 = "s.1.hdf5" := by decide
  have h0 : d.h5 (h5Name "s" 0) = some f := by rw [e0]; simp [d]
  have h1 : d.h5 (h5Name "s" 1) = some g := by
    rw [e1]
    simp only [d]
    rw [if_neg (by decide), if_pos trivial]
  have c1 : ("s" : String) ++ ".0" = "s.0" := rfl
  have c2 : ("s" : String) ++ ".hdf5" = "s.hdf5" := rfl
  have hno : ∀ n ∈ ["s", "s" ++ ".0", "s" ++ ".hdf5"], d.exists_ n = false := by
    intro n hn
    rw [c1, c2] at hn
    simp only [List.mem_cons, List.not_mem_nil, or_false] at hn
    rcases hn with rfl | rfl | rfl <;> simp [Disk.exists_, d]
  have hname : fnameFormat d.exists_ "s" = .ok (h5Name "s" 0, .hdf5) := by
    have c3 : ("s" : String) ++ ".0.hdf5" = h5Name "s" 0 := by decide
    unfold fnameFormat
    rw [if_neg (by simp [hno]), if_neg (by simp [hno]), if_neg (by simp [hno]), c3,
      if_pos (by simp [Disk.exists_, h0])]
  have hst0 := fnameFormat_h5Name h0
  have hst1 := fnameFormat_h5Name h1
  refine ⟨d, f, g, .several _ (by simp) hno ?_, ⟨?_, ?_⟩, rfl, rfl, ?_⟩
  · intro k hk
    match k, hk with
    | 0, _ => exact h0
    | 1, _ => exact h1
  · intro x hx; simp only [List.mem_cons, List.not_mem_nil, or_false] at hx; rcases hx with rfl | rfl <;> rfl
  · intro x hx j
    simp only [List.mem_cons, List.not_mem_nil, or_false] at hx
    match j with
    | 0 => rcases hx with rfl | rfl <;> rfl
    | 1 => rcases hx with rfl | rfl <;> rfl
    | 2 => rcases hx with rfl | rfl <;> rfl
    | 3 => rcases hx with rfl | rfl <;> rfl
    | 4 => rcases hx with rfl | rfl <;> rfl
    | 5 => rcases hx with rfl | rfl <;> rfl
    | j + 6 => rcases hx with rfl | rfl <;> rfl
  · obtain ⟨xs, hx1, hx2⟩ := h5Field_assign (.ids 1 [1, 2] (f := f) rfl rfl (by simp)) u []
      (List.replicate 2 (some [(0 : ℝ)])) (by simp)
    have hg : h5Field g u .id 1 = .error .exception := by
      simp [h5Field, H5.rows, g, h5File]
    have hr : List.range f.filenum = [0, 1] := rfl
    have hnp : f.npart.getD 1 0 = 2 := rfl
    have hn : f.nall.getD 1 0 = 2 := rfl
    have hfn : f.filenum ≠ 1 := by decide
    simp only [List.nil_append, List.length_nil, List.length_map, List.length_cons, Nat.zero_add] at hx2
    unfold readAll
    simp only [hname, Except.bind, header_h5 hst0 h0, idType, if_true, readField_h5 hst0 h0, hx1, Except.map,
      List.foldlM_cons, readType, bind, List.map_cons, List.map_nil, hn, hfn, if_false, hr, h5Files,
      hnp, header_h5 hst1 h1, readField_h5 hst1 h1, hg, List.sum_cons, List.sum_nil, Nat.add_zero, Block.comps,
      List.replicate_succ, List.replicate_zero] at hx2 ⊢
    rw [hx2]

/-- A file with IDs, and masses from the mass table. -/
example (f64 : Nat → ℝ) (u : UnitFac) :
    readAll ⟨fun _ => none, fun n => if n = "s.hdf5" then some (h5File 1 (some [8, 9]) 5 2 2) else none⟩ f64 u "s" .id [1] =
      .ok [some [8], some [9]] ∧
    readAll ⟨fun _ => none, fun n => if n = "s.hdf5" then some (h5File 1 (some [8, 9]) 5 2 2) else none⟩ f64 u "s" .mass [1] =
      .ok [some [5 / u.mass], some [5 / u.mass]] := by
  let f := h5File 1 (some [8, 9]) 5 2 2
  let d : Disk := ⟨fun _ => none, fun n => if n = "s.hdf5" then some f else none⟩
  have hd : H5OnDisk d "s" [f] := .single f "s.hdf5" (h5_single f) (by simp [d])
  have hs : IsH5Snapshot [f] := by
    refine ⟨?_, ?_⟩
    · intro g hg; rw [List.mem_singleton] at hg; subst hg; rfl
    · intro g hg j
      rw [List.mem_singleton] at hg
      subst hg
      simp [f, h5File]
  constructor
  · have := C57_hdf5_partial d "s" [f] hd hs f64 u .id [1] (by simp) (fun _ _ => [8, 9].map fun n : Nat => [(n : ℝ)])
      (by
        intro g hg pt hpt
        rw [List.mem_singleton] at hg hpt
        subst hg hpt
        exact .ids 1 [8, 9] rfl rfl (by simp))
    refine this.trans ?_
    simp [converted, UnitFac.of]
  · have := C57_hdf5_partial d "s" [f] hd hs f64 u .mass [1] (by simp) (fun _ _ => List.replicate 2 [(5 : ℝ)])
      (by
        intro g hg pt hpt
        rw [List.mem_singleton] at hg hpt
        subst hg hpt
        exact .table 1 rfl (by simp [f, h5File]))
    refine this.trans ?_
    simp [converted, UnitFac.of, List.replicate_succ]

/-! ## C91 -/

/-- C91 is false: if there is an entry in the mass table, the masses are returned instead of IDs which are
missing in the file. -/
theorem C91_masses_as_ids_refuted (f64 : Nat → ℝ) (u : UnitFac) : ∃ (d : Disk) (f : H5),
    H5OnDisk d "s" [f] ∧ IsH5Snapshot [f] ∧ f.ids 1 = none ∧ f.massarr.getD 1 0 = 5 ∧
    readAll d f64 u "s" .id [1] = .ok [some [5], some [5]] := by
  let f := h5File 1 none 5 2 2
  let d : Disk := ⟨fun _ => none, fun n => if n = "s.hdf5" then some f else none⟩
  have hname : fnameFormat d.exists_ "s" = .ok ("s.hdf5", .hdf5) := h5_single f
  have hf : d.h5 "s.hdf5" = some f := by simp [d]
  have hstable := C54_stable _ _ _ _ hname
  refine ⟨d, f, .single f "s.hdf5" hname hf, ?_, rfl, rfl, ?_⟩
  · refine ⟨?_, ?_⟩
    · intro g hg; rw [List.mem_singleton] at hg; subst hg; rfl
    · intro g hg j
      rw [List.mem_singleton] at hg
      subst hg
      simp [f, h5File]
  · have hfield : h5Field f u .id 1 = .ok (.flat [5, 5]) := by
      simp [h5Field, H5.rows, f, h5File, UnitFac.of]
    unfold readAll
    have hn : f.nall.getD 1 0 = 2 := rfl
    have hfn : f.filenum = 1 := rfl
    simp only [hname, Except.bind, header_h5 hstable hf, idType, if_true, readField_h5 hstable hf, readField_h5 hname hf,
      hfield, Except.map, List.foldlM_cons, List.foldlM_nil, readType, bind, pure, Except.pure, List.map_cons,
      List.map_nil, hn, hfn]
    simp [assign, Block.comps]

/-- C91. Without an entry in the mass table a missing dataset is an error, whatever the block. -/
theorem C91_missing_partial (d : Disk) (f64 : Nat → ℝ) (u : UnitFac) (s name : String) (f : H5)
    (hname : fnameFormat d.exists_ s = .ok (name, .hdf5)) (hf : d.h5 name = some f) (h1 : f.filenum = 1)
    (b : Block) (pt : Nat) (hmissing : f.rows b pt = none) (hm : f.massarr.getD pt 0 = 0) :
    readAll d f64 u s b [pt] = .error .exception := by
  have hst := C54_stable _ _ _ _ hname
  have hfield : h5Field f u b pt = .error .exception := by
    simp only [h5Field, hmissing, hm, ne_eq, not_true_eq_false, if_false]
  unfold readAll
  simp only [hname, Except.bind, header_h5 hst hf, idType]
  by_cases hb : b = .id
  · simp only [hb, if_true] at hfield ⊢
    simp only [readField_h5 hst hf, hfield, Except.map]
  · simp only [hb, if_false, List.foldlM_cons, readType, h1, if_true, readField_h5 hname hf, hfield, bind, Except.bind]

end Verif.Gadget
