import Verif.Gadget.ReadProps

/-!
# HDF5 snapshots: several files, IDs, missing datasets (C57, C58, C91)
-/

namespace Verif.Gadget

/-- The files of an HDF5 snapshot under `snapshot`: one file, or `snapshot.0.hdf5`, `snapshot.1.hdf5`, …. -/
inductive H5OnDisk (d : Disk) (snapshot : String) : List H5 → Prop
  | single (f : H5) (name : String) (hname : fnameFormat d.exists_ snapshot = .ok (name, .hdf5))
    (h : d.h5 name = some f) : H5OnDisk d snapshot [f]
  | several (files : List H5) (hn : 2 ≤ files.length)
    (hno : ∀ n ∈ [snapshot, snapshot ++ ".0", snapshot ++ ".hdf5"], d.exists_ n = false)
    (h : ∀ k (hk : k < files.length), d.h5 (h5Name snapshot k) = some files[k]) : H5OnDisk d snapshot files

/-- The header of the files: number of files, number of particles. -/
structure IsH5Snapshot (files : List H5) : Prop where
  filenum : ∀ f ∈ files, f.filenum = files.length
  nall : ∀ f ∈ files, ∀ j, f.nall.getD j 0 = (files.map fun g => g.npart.getD j 0).sum

/-- What a file says about the particles of a type: the dataset; or the mass table for masses without
a dataset. -/
inductive Says (f : H5) : Block → Nat → List (List ℝ) → Prop
  | data (b : Block) (pt : Nat) (l : List (List ℝ)) (hb : b ≠ .id) (h : f.data b pt = some l)
    (hl : l.length = f.npart.getD pt 0) : Says f b pt l
  | ids (pt : Nat) (l : List Nat) (h : f.ids pt = some l) (hl : l.length = f.npart.getD pt 0)
    (hs : ∀ n ∈ l, n ≤ 2 ^ 53) : Says f .id pt (l.map fun n : Nat => [(n : ℝ)])
  | table (pt : Nat) (h : f.data .mass pt = none) (hm : f.massarr.getD pt 0 ≠ 0) :
    Says f .mass pt (List.replicate (f.npart.getD pt 0) [f.massarr.getD pt 0])

theorem Says.length {f : H5} {b : Block} {pt : Nat} {l : List (List ℝ)} (h : Says f b pt l) :
    l.length = f.npart.getD pt 0 := by
  cases h with
  | data _ _ _ _ _ hl => exact hl
  | ids _ _ _ hl _ => simpa using hl
  | table => simp

/-- Conversion of the numbers of a block. -/
noncomputable def converted (u : UnitFac) (f : H5) (b : Block) (l : List (List ℝ)) : List (Option (List ℝ)) :=
  l.map fun row => some (row.map fun x => x / u.of b * (if b = .vel then √f.time else 1))

theorem length_converted (u : UnitFac) (f : H5) (b : Block) (l : List (List ℝ)) :
    (converted u f b l).length = l.length := by simp [converted]

theorem round53_le {n : Nat} (h : n ≤ 2 ^ 53) : round53 n = n := by
  rcases Nat.lt_or_eq_of_le h with h | rfl
  · exact round53_of_lt h
  · have : Nat.log2 (2 ^ 53) = 53 := by decide
    unfold round53
    rw [this]
    norm_num

/-- `assign` of what `read_field` returns for a file which says something about the block. -/
theorem h5Field_assign {f : H5} {b : Block} {pt : Nat} {l : List (List ℝ)} (h : Says f b pt l) (u : UnitFac)
    (done tail : List (Option (List ℝ))) (ht : l.length ≤ tail.length) :
    ∃ xs, h5Field f u b pt = .ok xs ∧ assign b.comps (done ++ tail) done.length l.length xs =
      .ok ((done ++ converted u f b l) ++ tail.drop l.length) := by
  cases h with
  | data _ _ _ hb h hl =>
    refine ⟨.rows (converted u f b l), ?_, ?_⟩
    · simp only [h5Field, H5.rows, hb, if_false, h, converted]
    · have := assign_rows b.comps done (converted u f b l) tail (by rw [length_converted]; exact ht)
      rw [length_converted] at this
      exact this
  | ids _ l h hl hs =>
    refine ⟨.rows (converted u f .id (l.map fun n : Nat => [(n : ℝ)])), ?_, ?_⟩
    · simp only [h5Field, H5.rows, if_true, h, Option.map_some, converted, List.map_map]
      congr 2
      apply List.map_congr_left
      intro n hn
      simp [Function.comp, round53_le (hs n hn)]
    · have := assign_rows Block.id.comps done (converted u f .id (l.map fun n : Nat => [(n : ℝ)])) tail
        (by rw [length_converted]; exact ht)
      rw [length_converted] at this
      exact this
  | table _ h hm =>
    refine ⟨.flat (List.replicate (f.npart.getD pt 0) (f.massarr.getD pt 0 / u.of .mass * 1)), ?_, ?_⟩
    · simp only [h5Field, H5.rows, reduceCtorEq, if_false, h, ne_eq, hm, not_false_eq_true, if_true]
    · rw [List.length_replicate] at ht ⊢
      have hmin : min (f.npart.getD pt 0) ((done ++ tail).length - done.length) = f.npart.getD pt 0 := by
        rw [List.length_append]; omega
      simp only [assign, hmin, Block.comps, if_true, List.length_replicate]
      rw [List.take_left, ← List.drop_drop, List.drop_left]
      simp [converted]

theorem endsHdf5_h5Name (s : String) (i : Nat) : endsHdf5 (h5Name s i) = true :=
  endsHdf5_hdf5 (s ++ "." ++ toString i)

theorem fnameFormat_h5Name {d : Disk} {s : String} {i : Nat} {f : H5} (h : d.h5 (h5Name s i) = some f) :
    fnameFormat d.exists_ (h5Name s i) = .ok (h5Name s i, .hdf5) := by
  unfold fnameFormat
  rw [if_pos (by simp [Disk.exists_, h]), if_pos (endsHdf5_h5Name s i)]

theorem header_h5 {d : Disk} {n name : String} {f : H5} (hn : fnameFormat d.exists_ n = .ok (name, .hdf5))
    (h : d.h5 name = some f) : header d n = .ok ⟨f.npart, f.nall, f.filenum⟩ := by
  unfold header
  simp only [hn, Except.bind, h]

theorem readField_h5 {d : Disk} {n name : String} {f : H5} (hn : fnameFormat d.exists_ n = .ok (name, .hdf5))
    (h : d.h5 name = some f) (f64 : Nat → ℝ) (u : UnitFac) (b : Block) (pt : Nat) :
    readField d f64 u n b pt = h5Field f u b pt := by
  unfold readField
  simp only [hn, Except.bind, header_h5 (C54_stable _ _ _ _ hn) h, h]

theorem h5Files_eq (d : Disk) (f64 : Nat → ℝ) (u : UnitFac) (snapshot : String) (b : Block) (pt : Nat)
    (files : List H5) (say : H5 → List (List ℝ)) (hsay : ∀ f ∈ files, Says f b pt (say f)) (i : Nat)
    (h : ∀ k (hk : k < files.length), d.h5 (h5Name snapshot (i + k)) = some files[k])
    (done tail : List (Option (List ℝ))) (ht : (files.flatMap fun f => converted u f b (say f)).length ≤ tail.length) :
    h5Files d f64 u snapshot b pt (List.range' i files.length) ⟨done.length, done ++ tail⟩ =
      .ok ⟨done.length + (files.flatMap fun f => converted u f b (say f)).length,
        (done ++ files.flatMap fun f => converted u f b (say f)) ++
          tail.drop (files.flatMap fun f => converted u f b (say f)).length⟩ := by
  induction files generalizing i done tail with
  | nil => simp [h5Files]
  | cons f files ih =>
    have h0 := h 0 (by simp)
    simp only [Nat.add_zero, List.getElem_cons_zero] at h0
    have hf := hsay f List.mem_cons_self
    have hn := fnameFormat_h5Name h0
    rw [List.flatMap_cons, List.length_append, length_converted] at ht
    obtain ⟨xs, hx1, hx2⟩ := h5Field_assign hf u done tail (by omega)
    rw [List.length_cons, List.range'_succ, h5Files, header_h5 hn h0]
    simp only [Except.bind]
    rw [readField_h5 hn h0, hx1]
    simp only
    rw [← hf.length, hx2]
    simp only
    have hih := ih (fun g hg => hsay g (List.mem_cons_of_mem _ hg)) (i + 1)
      (by
        intro k hk
        have := h (k + 1) (by simpa using hk)
        rw [show i + 1 + k = i + (k + 1) by omega]
        simpa using this)
      (done ++ converted u f b (say f)) (tail.drop (say f).length)
      (by rw [List.length_drop]; omega)
    rw [List.length_append, length_converted] at hih
    rw [hih, List.flatMap_cons]
    simp only [List.length_append, length_converted, List.append_assoc, List.drop_drop, Nat.add_assoc]

/-- C57 (HDF5). The requested types are read completely and in order from one file or several, if every
file has the dataset (or the mass table for masses); IDs up to 2⁵³. -/
theorem C57_hdf5_partial (d : Disk) (snapshot : String) (files : List H5) (hd : H5OnDisk d snapshot files)
    (hs : IsH5Snapshot files) (f64 : Nat → ℝ) (u : UnitFac) (b : Block) (pts : List Nat)
    (hpts : b = .id → pts ≠ []) (say : H5 → Nat → List (List ℝ))
    (hsay : ∀ f ∈ files, ∀ pt ∈ pts, Says f b pt (say f pt)) :
    readAll d f64 u snapshot b pts =
      .ok (pts.flatMap fun pt => files.flatMap fun f => converted u f b (say f pt)) := by
  have hlen : ∀ pt ∈ pts, (files.flatMap fun f => converted u f b (say f pt)).length =
      (files.map fun g => g.npart.getD pt 0).sum := by
    intro pt hpt
    rw [List.length_flatMap]
    congr 1
    apply List.map_congr_left
    intro f hf
    rw [length_converted]
    exact (hsay f hf pt hpt).length
  have main : ∀ (f : H5) (name : String), f ∈ files → fnameFormat d.exists_ snapshot = .ok (name, .hdf5) →
      d.h5 name = some f →
      (∀ pt ∈ pts, ∀ (done tail : List (Option (List ℝ))),
        (files.flatMap fun f => converted u f b (say f pt)).length ≤ tail.length →
        readType d f64 u snapshot .hdf5 ⟨f.npart, f.nall, f.filenum⟩ b ⟨done.length, done ++ tail⟩ pt =
          .ok ⟨done.length + (files.flatMap fun f => converted u f b (say f pt)).length,
            (done ++ files.flatMap fun f => converted u f b (say f pt)) ++
              tail.drop (files.flatMap fun f => converted u f b (say f pt)).length⟩) →
      readAll d f64 u snapshot b pts =
        .ok (pts.flatMap fun pt => files.flatMap fun f => converted u f b (say f pt)) := by
    intro f name hmem hname hfile hstep
    have hstable := C54_stable _ _ _ _ hname
    have hidt : idType d f64 u name b pts = .ok () := by
      unfold idType
      by_cases hb : b = .id
      · rw [if_pos hb]
        obtain ⟨pt, pts, rfl⟩ := List.exists_cons_of_ne_nil (hpts hb)
        obtain ⟨xs, hx, -⟩ := h5Field_assign (hsay f hmem pt List.mem_cons_self) u []
          (List.replicate (say f pt).length none) (by simp)
        simp only [readField_h5 hstable hfile, hx, Except.map]
      · rw [if_neg hb]
    unfold readAll
    simp only [hname, Except.bind, header_h5 hstable hfile, hidt]
    have hloop := types_loop (readType d f64 u snapshot .hdf5 ⟨f.npart, f.nall, f.filenum⟩ b)
      (fun i => f.nall.getD i 0) (fun pt => files.flatMap fun f => converted u f b (say f pt)) pts
      (fun pt hpt => by rw [hlen pt hpt]; exact hs.nall f hmem pt) hstep
      [] (List.replicate (pts.map fun i => f.nall.getD i 0).sum (some (List.replicate b.comps 0))) (by simp)
    simp only [List.length_nil, List.nil_append, Nat.zero_add] at hloop
    rw [hloop]
    simp only
    rw [if_neg]
    rw [List.length_flatMap, ne_eq, not_not]
    congr 1
    apply List.map_congr_left
    intro pt hpt
    rw [hlen pt hpt]
    exact (hs.nall f hmem pt).symm
  cases hd with
  | single f name hname h =>
    refine main f name List.mem_cons_self hname h ?_
    intro pt hpt done tail ht
    have hf := hsay f List.mem_cons_self pt hpt
    have h1 : f.filenum = 1 := hs.filenum f List.mem_cons_self
    have h2 : f.nall.getD pt 0 = (say f pt).length := by
      rw [hs.nall f List.mem_cons_self, hf.length]; simp
    simp only [List.flatMap_cons, List.flatMap_nil, List.append_nil, length_converted] at ht ⊢
    obtain ⟨xs, hx1, hx2⟩ := h5Field_assign hf u done tail ht
    simp only [readType, h1, if_true]
    rw [readField_h5 hname h, hx1]
    simp only [Except.bind]
    rw [h2, hx2]
    rfl
  | several _ hn hno h =>
    obtain ⟨f, rest, rfl⟩ := List.exists_cons_of_ne_nil (by intro h; simp [h] at hn : files ≠ [])
    have h0 := h 0 (by simp)
    simp only [List.getElem_cons_zero] at h0
    have hname0 : h5Name snapshot 0 = snapshot ++ ".0.hdf5" := by
      unfold h5Name
      rw [String.append_assoc, String.append_assoc]; rfl
    have hname : fnameFormat d.exists_ snapshot = .ok (h5Name snapshot 0, .hdf5) := by
      unfold fnameFormat
      rw [if_neg (by simp [hno]), if_neg (by simp [hno]), if_neg (by simp [hno]), ← hname0,
        if_pos (by simp [Disk.exists_, h0])]
    refine main f _ List.mem_cons_self hname h0 ?_
    intro pt hpt done tail ht
    have hf1 : f.filenum ≠ 1 := by rw [hs.filenum f List.mem_cons_self]; simp at hn ⊢; intro h; simp [h] at hn
    simp only [readType, hf1, if_false]
    rw [hs.filenum f List.mem_cons_self, List.range_eq_range']
    exact h5Files_eq d f64 u snapshot b pt (f :: rest) (fun f => say f pt)
      (fun g hg => hsay g hg pt hpt) 0 (by intro k hk; rw [Nat.zero_add]; exact h k hk) done tail ht

end Verif.Gadget
