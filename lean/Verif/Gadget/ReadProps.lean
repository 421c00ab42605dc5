import Verif.Gadget.BlockProps
import Verif.Gadget.ReadGadget

/-!
# Snapshots: names, several files, IDs (C54, C57, C58, C91)
-/

namespace Verif.Gadget

/-! ## C54 -/

theorem endsHdf5_iff (s : String) : endsHdf5 s = true ↔ ∃ t, s = t ++ "hdf5" := by
  unfold endsHdf5
  rw [decide_eq_true_eq]
  constructor
  · intro h
    refine ⟨String.ofList (s.toList.take (s.toList.length - 4)), ?_⟩
    apply String.toList_injective
    rw [String.toList_append, String.toList_ofList, ← h, List.take_append_drop]
  · rintro ⟨t, rfl⟩
    rw [String.toList_append, List.length_append]
    have : "hdf5".toList.length = 4 := rfl
    rw [this, Nat.add_sub_cancel, List.drop_left]

theorem endsHdf5_hdf5 (s : String) : endsHdf5 (s ++ ".hdf5") = true :=
  (endsHdf5_iff _).mpr ⟨s ++ ".", by rw [String.append_assoc]; rfl⟩

theorem endsHdf5_0_hdf5 (s : String) : endsHdf5 (s ++ ".0.hdf5") = true :=
  (endsHdf5_iff _).mpr ⟨s ++ ".0.", by rw [String.append_assoc]; rfl⟩

theorem endsHdf5_0 (s : String) : endsHdf5 (s ++ ".0") = false := by
  rw [Bool.eq_false_iff]
  intro h
  obtain ⟨t, ht⟩ := (endsHdf5_iff _).mp h
  have := congrArg (fun s => s.toList.getLast?) ht
  simp [String.toList_append] at this

/-- C54. The file which is read is the first one which exists of `s`, `s.0`, `s.hdf5`, `s.0.hdf5`; it is
read as HDF5 exactly if its name ends in `hdf5`; if none exists there is an error. -/
theorem C54_resolution (ex : String → Bool) (s : String) :
    (∀ name fmt, fnameFormat ex s = .ok (name, fmt) →
      [s, s ++ ".0", s ++ ".hdf5", s ++ ".0.hdf5"].find? ex = some name ∧
      (fmt = .hdf5 ↔ ∃ t, name = t ++ "hdf5")) ∧
    ((∃ e, fnameFormat ex s = .error e) ↔
      ∀ n ∈ [s, s ++ ".0", s ++ ".hdf5", s ++ ".0.hdf5"], ex n = false) := by
  unfold fnameFormat
  constructor
  · intro name fmt h
    rw [← endsHdf5_iff]
    split at h
    · rename_i h0
      split at h <;> rename_i h1 <;> simp only [Except.ok.injEq, Prod.mk.injEq] at h <;> obtain ⟨rfl, rfl⟩ := h <;>
        simp [List.find?, h0, h1]
    · rename_i h0
      split at h
      · rename_i h1
        simp only [Except.ok.injEq, Prod.mk.injEq] at h
        obtain ⟨rfl, rfl⟩ := h
        simp [List.find?, h0, h1, endsHdf5_0]
      · rename_i h1
        split at h
        · rename_i h2
          simp only [Except.ok.injEq, Prod.mk.injEq] at h
          obtain ⟨rfl, rfl⟩ := h
          simp [List.find?, h0, h1, h2, endsHdf5_hdf5]
        · rename_i h2
          split at h
          · rename_i h3
            simp only [Except.ok.injEq, Prod.mk.injEq] at h
            obtain ⟨rfl, rfl⟩ := h
            simp [List.find?, h0, h1, h2, h3, endsHdf5_0_hdf5]
          · cases h
  · by_cases h0 : ex s <;> by_cases h1 : ex (s ++ ".0") <;> by_cases h2 : ex (s ++ ".hdf5") <;>
      by_cases h3 : ex (s ++ ".0.hdf5") <;> by_cases h4 : endsHdf5 s <;> simp [h0, h1, h2, h3, h4]

/-- C54. The name which was found is resolved to itself. -/
theorem C54_stable (ex : String → Bool) (s name : String) (fmt : Format) (h : fnameFormat ex s = .ok (name, fmt)) :
    fnameFormat ex name = .ok (name, fmt) := by
  obtain ⟨h1, h2⟩ := (C54_resolution ex s).1 name fmt h
  have hex : ex name = true := by
    have := List.find?_some h1
    exact this
  unfold fnameFormat
  rw [if_pos hex]
  rw [← endsHdf5_iff] at h2
  cases fmt with
  | hdf5 => rw [if_pos (h2.mp rfl)]
  | binary => rw [if_neg (by intro h; exact absurd (h2.mpr h) (by simp))]

/-- A binary snapshot in several files next to an HDF5 one of the same name. -/
example : fnameFormat (fun n => n = "snap.hdf5" ∨ n = "snap.0") "snap" = .ok ("snap.0", .binary) := by
  unfold fnameFormat
  rw [if_neg (by simp), if_pos (by simp)]
  rfl

/-! ## C57 -/

/-- A single file (also the first one of several, given by its own name). -/
theorem readBlock_single (fs : String → Option (List Nat)) (name : String) (big : Bool) (idw : Nat)
    (hidw : idw = 4 ∨ idw = 8) (f : Snap) (hv : f.Valid idw) (hn : f.header.filenum ≠ 0)
    (hfs : fs name = some (f.bytes big idw)) (b : Block) (ptype : Nat) (hp : ptype < 6)
    (hid : b = .id → idw = 4 → f.block big idw .id ≠ [])
    (hmass : b = .mass → f.header.massarr.getD ptype 0 = 0 → f.block big idw .mass ≠ []) :
    readBlock fs name b ptype =
      .ok ((f.species.getD ptype []).map fun p => some (store b (p.value f.header.massarr ptype b))) := by
  unfold readBlock
  simp only [hfs, Option.isSome_some, if_true, openFirst, openFile, Except.bind, header_bytes hv big]
  by_cases htab : b = .mass ∧ f.header.massarr.getD ptype 0 ≠ 0
  · rw [if_pos htab, hv.npart]
    congr 1
    symm
    rw [List.eq_replicate_iff]
    refine ⟨by simp, ?_⟩
    intro x hx
    obtain ⟨p, -, rfl⟩ := List.mem_map.mp hx
    unfold Part.value
    rw [if_pos htab, htab.1]
    simp [store]
  · have hd : hasData b f.header.massarr ptype = true := (hasData_iff _ _ _).mpr htab
    rw [if_neg htab, if_neg hn]
    have hone := readOne_bytes hv big b ptype hp
      (fun h => hmass h (by by_contra h'; exact htab ⟨h, h'⟩)) hd true
      ⟨0, b.width, List.replicate (f.header.npart.getD ptype 0) none⟩
      (first_width hidw hv big b hid)
    have hass := assignSlice_prefix [] ((f.species.getD ptype []).map fun p => store b (p.stored b))
      (f.header.npart.getD ptype 0) (by rw [List.length_map, hv.npart])
    simp only [List.map_nil, List.nil_append, List.length_nil, List.length_map] at hass
    rw [hone, hass]
    simp only [Except.map, hv.npart, Nat.sub_self, List.replicate_zero, List.append_nil, List.map_map]
    congr 1
    apply List.map_congr_left
    intro p _
    simp only [Function.comp, stored_value hd]

/-- The files of a snapshot on disk, under `base`: `base.0`, `base.1`, …, or one file `base`. -/
inductive OnDisk (d : Disk) (base : String) (big : Bool) (idw : Nat) : List Snap → Prop
  | single (f : Snap) (h : d.bin base = some (f.bytes big idw)) (hdf : ¬∃ t, base = t ++ "hdf5") :
    OnDisk d base big idw [f]
  | several (files : List Snap) (hne : files ≠ []) (hbase : d.bin base = none) (hbase' : d.h5 base = none)
    (h : ∀ k (hk : k < files.length), d.bin (base ++ "." ++ toString k) = some (files[k].bytes big idw)) :
    OnDisk d base big idw files

/-- Number a user expects: velocities are multiplied by the square root of the scale factor. -/
noncomputable def physical (f64 : Nat → ℝ) (time : ℝ) (b : Block) (x : Nat) : ℝ :=
  match b with
  | .id => (x : ℝ)
  | .vel => f64 x * √time
  | _ => f64 x

theorem assign_rows (comps : Nat) (done l tail : List (Option (List ℝ))) (h : l.length ≤ tail.length) :
    assign comps (done ++ tail) done.length l.length (.rows l) = .ok ((done ++ l) ++ tail.drop l.length) := by
  have hm : min l.length ((done ++ tail).length - done.length) = l.length := by
    rw [List.length_append]; omega
  simp only [assign, hm, if_true]
  rw [List.take_left, ← List.drop_drop, List.drop_left]

/-- The loop over particle types. -/
theorem types_loop (step : Array_ → Nat → Except ReadErr Array_) (cnt : Nat → Nat)
    (out : Nat → List (Option (List ℝ))) (pts : List Nat) (hcnt : ∀ pt ∈ pts, cnt pt = (out pt).length)
    (hstep : ∀ pt ∈ pts, ∀ (done tail : List (Option (List ℝ))), (out pt).length ≤ tail.length →
      step ⟨done.length, done ++ tail⟩ pt =
        .ok ⟨done.length + (out pt).length, (done ++ out pt) ++ tail.drop (out pt).length⟩)
    (done tail : List (Option (List ℝ))) (ht : tail.length = (pts.map cnt).sum) :
    pts.foldlM step ⟨done.length, done ++ tail⟩ =
      .ok ⟨done.length + (pts.flatMap out).length, done ++ pts.flatMap out⟩ := by
  induction pts generalizing done tail with
  | nil =>
    have : tail = [] := by simpa using ht
    subst this
    simp [List.foldlM, pure, Except.pure]
  | cons pt pts ih =>
    rw [List.map_cons, List.sum_cons, hcnt pt List.mem_cons_self] at ht
    rw [List.foldlM_cons, hstep pt List.mem_cons_self done tail (by omega)]
    have := ih (fun q hq => hcnt q (List.mem_cons_of_mem _ hq)) (fun q hq => hstep q (List.mem_cons_of_mem _ hq))
      (done ++ out pt) (tail.drop (out pt).length) (by rw [List.length_drop]; omega)
    rw [List.length_append] at this
    simp only [bind, Except.bind]
    rw [this, List.flatMap_cons, List.length_append]
    simp only [List.append_assoc, Nat.add_assoc]

theorem round53_of_lt {n : Nat} (h : n < 2 ^ 53) : round53 n = n := by
  have hlog : Nat.log2 n - 52 = 0 := by
    by_cases h0 : n = 0
    · subst h0; simp
    · have := (Nat.log2_lt h0).mpr h
      omega
  unfold round53
  simp [hlog, Nat.mod_one]

/-- The first file of a snapshot. -/
theorem OnDisk.first {d : Disk} {base : String} {big : Bool} {idw : Nat} {files : List Snap}
    (h : OnDisk d base big idw files) :
    ∃ (f : Snap) (rest : List Snap) (name : String), files = f :: rest ∧ fnameFormat d.exists_ base = .ok (name, .binary) ∧
      d.bin name = some (f.bytes big idw) ∧ name = (if (d.bin base).isSome then base else base ++ ".0") := by
  cases h with
  | single f h hdf =>
    refine ⟨f, [], base, rfl, ?_, h, by simp [h]⟩
    unfold fnameFormat
    rw [if_pos (by simp [Disk.exists_, h]), if_neg (by rw [endsHdf5_iff]; exact hdf)]
  | several _ hne hbase hbase' h =>
    obtain ⟨f, files, rfl⟩ := List.exists_cons_of_ne_nil hne
    have h0 := h 0 (by simp)
    have hname : base ++ "." ++ toString 0 = base ++ ".0" := by rw [String.append_assoc]; rfl
    rw [hname] at h0
    simp only [List.getElem_cons_zero] at h0
    refine ⟨f, files, base ++ ".0", rfl, ?_, h0, by simp [hbase]⟩
    unfold fnameFormat
    rw [if_neg (by simp [Disk.exists_, hbase, hbase']), if_pos (by simp [Disk.exists_, h0])]

/-- What is read of a type, before the conversion of numbers. -/
theorem readBlock_onDisk {d : Disk} {base : String} {big : Bool} {idw : Nat} (hidw : idw = 4 ∨ idw = 8)
    {files : List Snap} (h : OnDisk d base big idw files) (hs : IsSnapshot files idw) (massarr : List Nat)
    (hm : ∀ f ∈ files, f.header.massarr = massarr) (b : Block) (pt : Nat) (hp : pt < 6)
    (hid : b = .id → idw = 4 → ∀ f, files.head? = some f → f.block big idw .id ≠ [])
    (hmass : b = .mass → massarr.getD pt 0 = 0 → ∀ f ∈ files, f.block big idw .mass ≠ []) :
    readBlock d.bin base b pt = .ok ((allOf files pt).map fun p => some (store b (p.value massarr pt b))) := by
  cases h with
  | single f h hdf =>
    have hmf := hm f List.mem_cons_self
    have hfn : f.header.filenum ≠ 0 := by rw [hs.filenum f List.mem_cons_self]; simp
    rw [readBlock_single d.bin base big idw hidw f (hs.valid f List.mem_cons_self) hfn h b pt hp
      (fun h1 h2 => hid h1 h2 f rfl) (fun h1 h2 => hmass h1 (by rw [← hmf]; exact h2) f List.mem_cons_self), hmf]
    simp [allOf]
  | several _ hne hbase hbase' h =>
    exact readBlock_files d.bin base big idw hidw files hs hne hbase h b pt hp hid massarr hm hmass

theorem number_physical (f64 : Nat → ℝ) (h : Header) (b : Block) (hz : b = .vel → f64 h.redshift = 0 → f64 h.time = 1)
    (massarr : List Nat) (pt : Nat) (p : Part) (hid : b = .id → p.id < 2 ^ 32) :
    (store b (p.value massarr pt b)).map (fun x => number f64 b x * velFactor f64 b h) =
      (p.value massarr pt b).map (physical f64 (f64 h.time) b) := by
  cases b
  · simp only [store, number, velFactor, reduceCtorEq, if_false, false_and, mul_one]
    rfl
  · simp only [store, number, velFactor, reduceCtorEq, if_false, true_and]
    apply List.map_congr_left
    intro x _
    split
    · rfl
    · rename_i h0
      rw [hz rfl (by simpa using h0)]
      simp [physical]
  · have hlt := hid rfl
    have hv : p.value massarr pt .id = [p.id] := by simp [Part.value, Part.stored]
    simp only [store, number, velFactor, physical, hv, if_true, List.map_cons, List.map_nil, reduceCtorEq, false_and,
      if_false, mul_one]
    rw [Nat.mod_eq_of_lt hlt, round53_of_lt (lt_trans hlt (by norm_num))]
  · simp only [store, number, velFactor, reduceCtorEq, if_false, false_and, mul_one]
    rfl

theorem binaryBlock_onDisk {d : Disk} {base : String} {big : Bool} {idw : Nat} (hidw : idw = 4 ∨ idw = 8)
    {files : List Snap} (h : OnDisk d base big idw files) (hs : IsSnapshot files idw) (massarr : List Nat)
    (hm : ∀ f ∈ files, f.header.massarr = massarr) (b : Block) (pt : Nat) (hp : pt < 6)
    (hid : b = .id → idw = 4 → ∀ f, files.head? = some f → f.block big idw .id ≠ [])
    (hmass : b = .mass → massarr.getD pt 0 = 0 → ∀ f ∈ files, f.block big idw .mass ≠ [])
    (f64 : Nat → ℝ) (u : UnitFac) (first : Snap) (hfirst : files.head? = some first)
    (hz : b = .vel → f64 first.header.redshift = 0 → f64 first.header.time = 1)
    (hids : b = .id → ∀ p ∈ allOf files pt, p.id < 2 ^ 32) :
    binaryBlock d f64 u base b pt = .ok (.rows ((allOf files pt).map fun p =>
      some ((p.value massarr pt b).map fun x => physical f64 (f64 first.header.time) b x / u.of b))) := by
  obtain ⟨f, rest, name, rfl, hname, hbin, hname'⟩ := h.first
  simp only [List.head?_cons, Option.some.injEq] at hfirst
  subst hfirst
  unfold binaryBlock
  rw [readBlock_onDisk hidw h hs massarr hm b pt hp hid hmass]
  simp only [Except.bind]
  rw [← hname', openFile, hbin]
  simp only [header_bytes (hs.valid f List.mem_cons_self) big, Except.map]
  congr 2
  rw [List.map_map]
  apply List.map_congr_left
  intro p hp'
  have hn := number_physical f64 f.header b hz massarr pt p (fun hb => hids hb p hp')
  simp only [Function.comp, Option.map_some]
  congr 1
  have h1 := congrArg (List.map fun x => x / u.of b) hn
  simpa only [List.map_map, Function.comp_def] using h1

/-- C57 (binary). Positions, velocities, masses and IDs of the requested particle types, in one file or
in several, in either byte order, are read completely and in order: for each type in the order of the
request, those of the first file, of the second file, …, in the given units.  IDs have to be below 2³²,
the first file must not be empty if IDs have four bytes, and all files need a mass block if it is
asked for and there is no entry in the mass table. -/
theorem C57_binary_partial (d : Disk) (base : String) (big : Bool) (idw : Nat) (hidw : idw = 4 ∨ idw = 8)
    (files : List Snap) (h : OnDisk d base big idw files) (hs : IsSnapshot files idw) (massarr : List Nat)
    (hm : ∀ f ∈ files, f.header.massarr = massarr) (first : Snap) (hfirst : files.head? = some first)
    (f64 : Nat → ℝ) (u : UnitFac)
    (b : Block) (pts : List Nat) (hpts : ∀ pt ∈ pts, pt < 6)
    (hz : b = .vel → f64 first.header.redshift = 0 → f64 first.header.time = 1)
    (hid : b = .id → pts ≠ [] ∧ first.block big idw .id ≠ [] ∧ ∀ pt ∈ pts, ∀ p ∈ allOf files pt, p.id < 2 ^ 32)
    (hmass : b = .mass → ∀ pt ∈ pts, massarr.getD pt 0 = 0 → ∀ f ∈ files, f.block big idw .mass ≠ []) :
    readAll d f64 u base b pts = .ok (pts.flatMap fun pt => (allOf files pt).map fun p =>
      some ((p.value massarr pt b).map fun x => physical f64 (f64 first.header.time) b x / u.of b)) := by
  obtain ⟨f, rest, name, rfl, hname, hbin, hname'⟩ := h.first
  simp only [List.head?_cons, Option.some.injEq] at hfirst
  subst hfirst
  have hvf := hs.valid f List.mem_cons_self
  have hstable := C54_stable _ _ _ _ hname
  have hheader : header d name = .ok ⟨f.header.npart, f.header.nall, f.header.filenum⟩ := by
    unfold header
    rw [hstable]
    simp only [Except.bind, hbin, header_bytes hvf big, Except.map]
  have hblock : ∀ pt ∈ pts, binaryBlock d f64 u base b pt = .ok (.rows ((allOf (f :: rest) pt).map fun p =>
      some ((p.value massarr pt b).map fun x => physical f64 (f64 f.header.time) b x / u.of b))) := by
    intro pt hpt
    refine binaryBlock_onDisk hidw h hs massarr hm b pt (hpts pt hpt) ?_ (fun hb => hmass hb pt hpt) f64 u f rfl hz ?_
    · intro hb _ g hg
      simp only [List.head?_cons, Option.some.injEq] at hg
      subst hg
      exact (hid hb).2.1
    · intro hb
      exact (hid hb).2.2 pt hpt
  have hidt : idType d f64 u name b pts = .ok () := by
    unfold idType
    by_cases hb : b = .id
    · rw [if_pos hb]
      obtain ⟨h1, h2, h3⟩ := hid hb
      obtain ⟨pt, pts, rfl⟩ := List.exists_cons_of_ne_nil h1
      have hsingle := readBlock_single d.bin name big idw hidw f hvf
        (by rw [hs.filenum f List.mem_cons_self]; simp) hbin b pt (hpts pt List.mem_cons_self) (fun _ _ => h2)
        (by rw [hb]; simp)
      simp only [readField, hstable, Except.bind, hheader, binaryBlock, hsingle, hbin, Option.isSome_some, if_true,
        openFirst, openFile, header_bytes hvf big, Except.map]
    · rw [if_neg hb]
  unfold readAll
  simp only [hname, Except.bind, hheader, hidt]
  have hnall : ∀ pt, f.header.nall.getD pt 0 = (allOf (f :: rest) pt).length := by
    intro pt
    rw [hs.nall f List.mem_cons_self, length_allOf]
  have hloop := types_loop (readType d f64 u base .binary ⟨f.header.npart, f.header.nall, f.header.filenum⟩ b)
    (fun i => f.header.nall.getD i 0)
    (fun pt => (allOf (f :: rest) pt).map fun p =>
      some ((p.value massarr pt b).map fun x => physical f64 (f64 f.header.time) b x / u.of b)) pts
    (fun pt _ => by rw [List.length_map]; exact hnall pt)
    (by
      intro pt hpt done tail hle
      have hass := assign_rows b.comps done _ tail hle
      simp only [readType, hblock pt hpt, Except.bind, hnall]
      rw [List.length_map] at hass ⊢
      rw [hass]
      rfl)
    [] (List.replicate (pts.map fun i => f.header.nall.getD i 0).sum (some (List.replicate b.comps 0)))
    (by simp)
  simp only [List.length_nil, List.nil_append, Nat.zero_add] at hloop
  rw [hloop]
  simp only
  rw [if_neg]
  rw [List.length_flatMap, ne_eq, not_not]
  congr 1
  apply List.map_congr_left
  intro pt _
  rw [List.length_map]
  exact (hnall pt).symm

end Verif.Gadget
