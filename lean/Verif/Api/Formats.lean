import Verif.Api.GadgetProps
import Verif.Api.ShapesProps
import Verif.Api.KernelProps
import Verif.Gadget.SnapExamples

/-!
# Formats of snapshots; from files to results (C132)
-/

namespace Verif.Api

open Verif.Units Verif.Catalogue Verif.Periodic Verif.Binning Verif.Par Verif.Gadget
open Verif.Shapes (Solver GoodSolver Degenerate)

/-! ## Specification -/

/-- A radius after conversion to internal units and rounding to single precision, in the units of the files. -/
noncomputable def asRead (f32 : ℝ → ℝ) (c : Cfg ℝ) (r : ℝ) : ℝ := f32 (r * (c.inL / mpch c.h)) / (c.inL / mpch c.h)

/-- The objects of a simulation as they are read: particles of the central subhalos, radii of their groups. -/
noncomputable def objectsRead (f32 : ℝ → ℝ) (c : Cfg ℝ) (s : Simulation) : List (List Nat × ℝ) :=
  (centrals s.groups).map fun o => (o.1, asRead f32 c o.2)

/-! ## Proofs -/

theorem factor_ne (c : Cfg ℝ) (hc : c.Pos) : c.inL / mpch c.h ≠ 0 := div_ne_zero hc.inL.ne' (mpch_ne c hc)

/-- C132. A simulation stored in a snapshot of either format (HDF5 or binary; one file or several) and in group files: the object made
from the files is exactly the object made from the arrays of positions and masses, with the central subhalos as objects, and radii which
differ by rounding to single precision only.  Hence all that is proved about objects made from arrays holds for objects made from files. -/
theorem C132_files_as_arrays (c : Cfg ℝ) (hc : c.Pos) (mc : Machine) (hrank : mc.rank = 0) (hsize : 0 < mc.size)
    (i : GInput) (pt : Nat) (hpt : getPartType i.objType = .ok pt)
    (hw : i.rvirOrR200 = "Rvir" ∨ i.rvirOrR200 = "R200") (s : Simulation)
    (hlen : s.pos.length = s.mass.length)
    (hs : StoredIn mc i.snapshot pt s) (hg : GroupsOf i.groupFiles i.rvirOrR200 pt s)
    (hne : centrals s.groups ≠ []) (out : Except GErr Obj) :
    GadgetConstruct c mc i out ↔
    ∃ o, construct c ⟨s.pos, s.mass, .nested ((objectsRead mc.f32 c s).map Prod.fst),
      .array ((objectsRead mc.f32 c s).map Prod.snd), s.box, i.minPtcs, i.center⟩ = .ok o ∧ out = .ok o := by
  have hgne : s.groups ≠ [] := by rintro h0; exact hne (by simp [h0, centrals])
  have ht := readTables_eq c mc i pt hpt hw hsize s hg hgne
  have hp := readParticles_stored c hc mc i pt hpt s hs
  have hb := readBox_stored c mc i pt s hs
  rw [construct_of_reads c mc hrank i s hlen hne ht hp hb]
  have hne' : objectsRead mc.f32 c s ≠ [] := by simpa [objectsRead] using hne
  rw [construct_eq c s.pos s.mass s.box (centrals s.groups) i.minPtcs i.center hlen hne,
    construct_eq c s.pos s.mass s.box (objectsRead mc.f32 c s) i.minPtcs i.center hlen hne']
  have hres : resolved i.minPtcs (objectsRead mc.f32 c s) =
      (resolved i.minPtcs (centrals s.groups)).map fun o => (o.1, asRead mc.f32 c o.2) := by
    unfold resolved objectsRead
    rw [List.filter_map]
    rfl
  have hf := factor_ne c hc
  constructor
  · rintro ⟨o, ho, rfl⟩
    obtain rfl := Except.ok.inj ho
    refine ⟨_, rfl, ?_⟩
    rw [hres]
    simp [Function.comp_def, asRead, hf]
  · rintro ⟨o, ho, rfl⟩
    obtain rfl := Except.ok.inj ho
    refine ⟨_, rfl, ?_⟩
    rw [hres]
    simp [Function.comp_def, asRead, hf]

/-- C132. The format of the snapshot, its name, the division into files, the byte order, the number of processes and the size of the
pieces in which data are broadcast do not matter: the same outcomes are possible, and two objects made are equal, so that all their
answers are. -/
theorem C132_formats (c : Cfg ℝ) (hc : c.Pos) (mc mc' : Machine) (hrank : mc.rank = 0) (hrank' : mc'.rank = 0)
    (hsize : 0 < mc.size) (hsize' : 0 < mc'.size) (hf : mc'.f32 = mc.f32) (i i' : GInput) (pt : Nat)
    (hpt : getPartType i.objType = .ok pt) (hw : i.rvirOrR200 = "Rvir" ∨ i.rvirOrR200 = "R200")
    (ho : i'.objType = i.objType) (hr : i'.rvirOrR200 = i.rvirOrR200) (hm : i'.minPtcs = i.minPtcs)
    (hcen : i'.center = i.center) (s : Simulation) (hlen : s.pos.length = s.mass.length)
    (hs : StoredIn mc i.snapshot pt s) (hg : GroupsOf i.groupFiles i.rvirOrR200 pt s)
    (hs' : StoredIn mc' i'.snapshot pt s) (hg' : GroupsOf i'.groupFiles i.rvirOrR200 pt s)
    (hne : centrals s.groups ≠ []) :
    (∀ out, GadgetConstruct c mc i out ↔ GadgetConstruct c mc' i' out) ∧ (∃ o, GadgetConstruct c mc i (.ok o)) ∧
    ∀ o o', GadgetConstruct c mc i (.ok o) → GadgetConstruct c mc' i' (.ok o') → o = o' := by
  have h1 := C132_files_as_arrays c hc mc hrank hsize i pt hpt hw s hlen hs hg hne
  have h2 := C132_files_as_arrays c hc mc' hrank' hsize' i' pt (by rw [ho]; exact hpt) (by rw [hr]; exact hw) s hlen hs'
    (by rw [hr]; exact hg') hne
  have h12 : ∀ out, GadgetConstruct c mc i out ↔ GadgetConstruct c mc' i' out := by
    intro out
    rw [h1, h2, hf, hm, hcen]
  refine ⟨h12, ?_, ?_⟩
  · have hne' : objectsRead mc.f32 c s ≠ [] := by simpa [objectsRead] using hne
    exact ⟨_, (h1 _).2 ⟨_, construct_eq c s.pos s.mass s.box (objectsRead mc.f32 c s) i.minPtcs i.center hlen hne', rfl⟩⟩
  · intro o o' h3 h4
    obtain ⟨a, ha, ea⟩ := (h1 _).1 h3
    obtain ⟨b, hb, eb⟩ := (h1 _).1 ((h12 _).2 h4)
    rw [ha] at hb
    rw [Except.ok.inj ea, Except.ok.inj eb, Except.ok.inj hb]

theorem sensible_read (f32 : ℝ → ℝ) (c : Cfg ℝ) (s : Simulation)
    (h : Sensible s.pos s.mass s.box (centrals s.groups)) : Sensible s.pos s.mass s.box (objectsRead f32 c s) := by
  refine ⟨h.lengths, h.box_pos, h.inside, h.masses_pos, by simpa [objectsRead] using h.objects, ?_⟩
  intro o ho j hj
  obtain ⟨o', ho', rfl⟩ := List.mem_map.1 ho
  exact h.exist o' ho' j hj

/-- C96, from files to density profiles.  Make an object from the files of a simulation and ask for density profiles (spherical shells)
of a good selection, at increasing radii.  Whatever the schedule of the parallel loops and the format of the files, row `k` belongs to the
`k`-th selected central subhalo; unless this crosses a face of the box, the density at radius number `b`, as a physical quantity, times the
volume of the shell is the mass of its particles in the shell.  (Objects which cross a face: `C96_crossing_refuted`.) -/
theorem C96_from_files_partial (c c' : Cfg ℝ) (hc : c.Pos) (hc' : c'.Pos) (hh : c'.h = c.h) (mc : Machine) (hrank : mc.rank = 0)
    (hsize : 0 < mc.size) (i : GInput) (pt : Nat) (hpt : getPartType i.objType = .ok pt)
    (hw : i.rvirOrR200 = "Rvir" ∨ i.rvirOrR200 = "R200") (s : Simulation)
    (hsens : Sensible s.pos s.mass s.box (centrals s.groups))
    (hr200 : ∀ o ∈ centrals s.groups, 0 < mc.f32 (o.2 * (c.inL / mpch c.h))) (hmin : 1 ≤ i.minPtcs)
    (hs : StoredIn mc i.snapshot pt s) (hg : GroupsOf i.groupFiles i.rvirOrR200 pt s)
    (choose : Nat → List Nat) (hch : ∀ n, 0 < n → ∃ j ∈ choose n, j < n) (limit : Nat) (o : Obj)
    (ho : GadgetConstruct c mc i (.ok o))
    (radii : List ℝ) (hradii : radii ≠ []) (hinc : radii.Pairwise (· < ·)) (hpos : ∀ r ∈ radii, 1e-8 < r)
    (sel : List Int) (hsel : GoodSelection sel (resolved i.minPtcs (objectsRead mc.f32 c s)).length)
    (out : Except Err (List (List ℝ))) (hrun : EstDensProfs c' choose limit o radii sel out) :
    (out = .error .recursion ∧ i.center = .mode) ∨
    ∃ res, out = .ok res ∧ res.length = sel.length ∧
      ∀ (k : Nat) (z : Int) (obj : List Nat × ℝ), sel[k]? = some z →
        (resolved i.minPtcs (objectsRead mc.f32 c s))[z.toNat]? = some obj →
        NotCrossing s.box (particlesOf s.pos s.mass obj.1) →
        ∃ row : List ℝ, res[k]? = some row ∧ row.length = radii.length ∧
        ∃ sub, sub.Sublist (particlesOf s.pos s.mass obj.1) ∧ sub ≠ [] ∧
          (i.center = .com → sub = particlesOf s.pos s.mass obj.1) ∧
          ∀ (b : Nat) (dens : ℝ), row[b]? = some dens →
            dens * (c'.outM / c'.outL ^ 3) * shellVolume (lowerEdge radii b * obj.2 * c.inL)
              (upperEdge radii b * obj.2 * c.inL) =
            massBetween (weightedMean sub) (particlesOf s.pos s.mass obj.1)
              (lowerEdge radii b * obj.2) (upperEdge radii b * obj.2) * c.inM := by
  obtain ⟨o', ho', he⟩ := (C132_files_as_arrays c hc mc hrank hsize i pt hpt hw s hsens.lengths hs hg hsens.objects _).1 ho
  obtain rfl := Except.ok.inj he
  refine C96_density_partial c c' hc hc' hh s.pos s.mass s.box (objectsRead mc.f32 c s) i.minPtcs hmin i.center
    (sensible_read _ _ _ hsens) ?_ choose hch limit o ho' radii hradii hinc hpos sel hsel out hrun
  intro x hx
  obtain ⟨y, hy, rfl⟩ := List.mem_map.1 hx
  have := hr200 y hy
  have hm : 0 < mpch c.h := by have := hc.h; unfold mpch; positivity
  exact div_pos this (div_pos hc.inL hm)

theorem radii_read_pos (f32 : ℝ → ℝ) (c : Cfg ℝ) (hc : c.Pos) (s : Simulation)
    (hr200 : ∀ o ∈ centrals s.groups, 0 < f32 (o.2 * (c.inL / mpch c.h))) : ∀ o ∈ objectsRead f32 c s, 0 < o.2 := by
  intro x hx
  obtain ⟨y, hy, rfl⟩ := List.mem_map.1 hx
  have hm : 0 < mpch c.h := by have := hc.h; unfold mpch; positivity
  exact div_pos (hr200 y hy) (div_pos hc.inL hm)

/-- C106, from files to shapes.  Make an object from the files of a simulation and ask for local or global shapes of a good selection
(without stored catalogue).  Whatever the format of the files and the schedule of the parallel loop, the reply has one row for each
selected central subhalo and one entry for each radius; unless the subhalo crosses a face of the box, each entry is the answer to the
shape task for the particles of this subhalo in the snapshot, with the radius of its group.  (Objects which cross a face:
`C106_crossing_refuted`.) -/
theorem C106_from_files_partial (c c' : Cfg ℝ) (hc : c.Pos) (hc' : c'.Pos) (hh : c'.h = c.h) (mc : Machine) (hrank : mc.rank = 0)
    (hsize : 0 < mc.size) (i : GInput) (pt : Nat) (hpt : getPartType i.objType = .ok pt)
    (hw : i.rvirOrR200 = "Rvir" ∨ i.rvirOrR200 = "R200") (s : Simulation)
    (hsens : Sensible s.pos s.mass s.box (centrals s.groups))
    (hr200 : ∀ o ∈ centrals s.groups, 0 < mc.f32 (o.2 * (c.inL / mpch c.h))) (hmin : 1 ≤ i.minPtcs)
    (hs : StoredIn mc i.snapshot pt s) (hg : GroupsOf i.groupFiles i.rvirOrR200 pt s)
    (sol : Solver) (hsol : GoodSolver sol)
    (choose : Nat → List Nat) (hch : ∀ n, 0 < n → ∃ j ∈ choose n, j < n) (limit : Nat) (o : Obj)
    (ho : GadgetConstruct c mc i (.ok o))
    (katz : Katz) (htol : katz.tol < 1) (hradii : ∀ r ∈ katz.radii, 0 < r) (whole : Bool)
    (sel : List Int) (hsel : GoodSelection sel (resolved i.minPtcs (objectsRead mc.f32 c s)).length)
    (out : Except ShapeErr (List (List ShapeEntry)))
    (hrun : GetShapeCat c' sol choose limit o katz whole sel out) :
    (out = .error (.api .recursion) ∧ i.center = .mode) ∨
    (out = .error .zeroDivision ∧ ∃ (k : Nat) (z : Int) (obj : List Nat × ℝ), sel[k]? = some z ∧
      (resolved i.minPtcs (objectsRead mc.f32 c s))[z.toNat]? = some obj ∧
      (NotCrossing s.box (particlesOf s.pos s.mass obj.1) →
        ∃ sub, sub.Sublist (particlesOf s.pos s.mass obj.1) ∧ sub ≠ [] ∧
          (i.center = .com → sub = particlesOf s.pos s.mass obj.1) ∧
          ∃ b, b < wantedColumns katz whole ∧ Degenerate (task katz sol (particlesOf s.pos s.mass obj.1)
            (weightedMean sub) (wantedVolume katz whole obj.2 (6 * mpch c.h / c.inL) b)))) ∨
    ∃ res, out = .ok res ∧ res.length = sel.length ∧
      ∀ (k : Nat) (z : Int) (obj : List Nat × ℝ), sel[k]? = some z →
        (resolved i.minPtcs (objectsRead mc.f32 c s))[z.toNat]? = some obj →
        ∃ row : List ShapeEntry, res[k]? = some row ∧ row.length = wantedColumns katz whole ∧
        (NotCrossing s.box (particlesOf s.pos s.mass obj.1) →
        ∃ sub, sub.Sublist (particlesOf s.pos s.mass obj.1) ∧ sub ≠ [] ∧
          (i.center = .com → sub = particlesOf s.pos s.mass obj.1) ∧
          ∀ (b : Nat) (e : ShapeEntry), row[b]? = some e →
            Answers (task katz sol (particlesOf s.pos s.mass obj.1) (weightedMean sub)
              (wantedVolume katz whole obj.2 (6 * mpch c.h / c.inL) b)) c.inL c'.outL e) := by
  obtain ⟨o', ho', he⟩ := (C132_files_as_arrays c hc mc hrank hsize i pt hpt hw s hsens.lengths hs hg hsens.objects _).1 ho
  obtain rfl := Except.ok.inj he
  exact C106_shapes_partial c c' hc hc' hh s.pos s.mass s.box (objectsRead mc.f32 c s) i.minPtcs hmin i.center
    (sensible_read _ _ _ hsens) (radii_read_pos _ _ hc _ hr200) sol hsol choose hch limit o ho' katz htol hradii whole sel hsel
    out hrun

/-- C113, from files to kernel-based density profiles, likewise.  (Exceptions: objects which cross a face of the box, and those with a
particle at the centre, see C113.) -/
theorem C113_from_files_partial (c c' : Cfg ℝ) (hc : c.Pos) (hc' : c'.Pos) (hh : c'.h = c.h) (mc : Machine) (hrank : mc.rank = 0)
    (hsize : 0 < mc.size) (i : GInput) (pt : Nat) (hpt : getPartType i.objType = .ok pt)
    (hw : i.rvirOrR200 = "Rvir" ∨ i.rvirOrR200 = "R200") (s : Simulation)
    (hsens : Sensible s.pos s.mass s.box (centrals s.groups))
    (hr200 : ∀ o ∈ centrals s.groups, 0 < mc.f32 (o.2 * (c.inL / mpch c.h))) (hmin : 1 ≤ i.minPtcs)
    (hs : StoredIn mc i.snapshot pt s) (hg : GroupsOf i.groupFiles i.rvirOrR200 pt s)
    (choose : Nat → List Nat) (hch : ∀ n, 0 < n → ∃ j ∈ choose n, j < n) (limit : Nat) (o : Obj)
    (ho : GadgetConstruct c mc i (.ok o))
    (radii : List ℝ) (hradii : radii ≠ []) (hpos : ∀ r ∈ radii, 0 < r)
    (sel : List Int) (hsel : GoodSelection sel (resolved i.minPtcs (objectsRead mc.f32 c s)).length)
    (out : Except KernelErr (List (List ℝ)))
    (hrun : EstDensProfsKernel c' choose limit o radii sel out) :
    (out = .error (.base .recursion) ∧ i.center = .mode) ∨
    (out = .error .zeroDivision ∧ ∃ z ∈ sel, ∃ obj, (resolved i.minPtcs (objectsRead mc.f32 c s))[z.toNat]? = some obj ∧
      (NotCrossing s.box (particlesOf s.pos s.mass obj.1) →
        ∃ sub, sub.Sublist (particlesOf s.pos s.mass obj.1) ∧ sub ≠ [] ∧
          (i.center = .com → sub = particlesOf s.pos s.mass obj.1) ∧
          ∃ p ∈ particlesOf s.pos s.mass obj.1, p.pos = weightedMean sub)) ∨
    ∃ res, out = .ok res ∧ res.length = sel.length ∧
      ∀ (k : Nat) (z : Int) (obj : List Nat × ℝ), sel[k]? = some z →
        (resolved i.minPtcs (objectsRead mc.f32 c s))[z.toNat]? = some obj →
        NotCrossing s.box (particlesOf s.pos s.mass obj.1) →
        ∃ row : List ℝ, res[k]? = some row ∧ row.length = radii.length ∧
        ∃ sub, sub.Sublist (particlesOf s.pos s.mass obj.1) ∧ sub ≠ [] ∧
          (i.center = .com → sub = particlesOf s.pos s.mass obj.1) ∧
          ∀ (b : Nat) (dens r : ℝ), row[b]? = some dens → radii[b]? = some r →
            dens * (c'.outM / c'.outL ^ 3) =
              smoothedDensity obj.2 (weightedMean sub) (particlesOf s.pos s.mass obj.1) (r * obj.2) *
                (c.inM / c.inL ^ 3) := by
  obtain ⟨o', ho', he⟩ := (C132_files_as_arrays c hc mc hrank hsize i pt hpt hw s hsens.lengths hs hg hsens.objects _).1 ho
  obtain rfl := Except.ok.inj he
  rcases C113_kernel_partial c c' hc hc' hh s.pos s.mass s.box (objectsRead mc.f32 c s) i.minPtcs hmin i.center
    (sensible_read _ _ _ hsens) (radii_read_pos _ _ hc _ hr200) choose hch limit o ho' radii hradii hpos sel hsel out hrun with
    h | h | ⟨res, h1, h2, h3⟩
  · exact .inl h
  · exact .inr (.inl h)
  · refine .inr (.inr ⟨res, h1, h2, fun k z obj hk hobj hnc => ?_⟩)
    obtain ⟨row, g1, g2, sub, g3, g4, g5, -, g6, -⟩ := h3 k z obj hk hobj hnc
    exact ⟨row, g1, g2, sub, g3, g4, g5, g6⟩

/-! ## Example -/

/-- The dark matter of the two binary files of `snapshotAB`; the first two particles form the central subhalo of a group. -/
noncomputable def simAB : Simulation :=
  ⟨[![1, 2, 3], ![5, 6, 7], ![20, 21, 22]], [7, 7, 7], 1, [⟨3, 4, [2]⟩]⟩

/-- The same particles in one HDF5 file. -/
noncomputable def hdfAB : H5 where
  npart := [0, 3]
  nall := [0, 3]
  massarr := [0, 0]
  filenum := 1
  time := 1
  boxsize := 1
  data := fun b _ => if b = .pos then some [[1, 2, 3], [5, 6, 7], [20, 21, 22]] else some [[7], [7], [7]]
  ids := fun _ => none

/-- The same simulation in two binary files, in either byte order, and in one HDF5 file. -/
example (big : Bool) : BinarySnapshotOf (diskAB big) (fun n => (n : ℝ)) "s" 1 simAB ∧
    SnapshotOf ⟨fun _ => none, fun n => if n = "s.hdf5" then some hdfAB else none⟩ "s.hdf5" 1 simAB ∧
    GroupsOf exampleInput.groupFiles "Rvir" 1 simAB ∧ resolved 2 (centrals simAB.groups) = [([0, 1], 4)] := by
  have hcen : centrals simAB.groups = [([0, 1], 4)] := by
    simp [centrals, simAB, startOf, List.range_succ]
  have hall : allOf [fileA, fileB] 1 = [ptc 1 100 0, ptc 5 101 0, ptc 20 103 0] := rfl
  have e1 : (![1, 2, 3] : Vec ℝ) 2 = 3 := rfl
  have e2 : (![5, 6, 7] : Vec ℝ) 2 = 7 := rfl
  have e3 : (![20, 21, 22] : Vec ℝ) 2 = 22 := rfl
  refine ⟨⟨big, 4, [fileA, fileB], [0, 7, 0, 0, 0, 0], .inl rfl, onDiskAB big, snapshotAB, ?_, ?_, ?_, ?_⟩,
    ⟨[hdfAB], fun f => (f.data .pos 1).getD [], fun f => (f.data .mass 1).getD [], ?_, ?_, ?_, ?_, ?_⟩,
    ⟨?_, ?_, ?_, ?_, ?_⟩, ?_⟩
  · intro f hf
    simp only [List.mem_cons, List.not_mem_nil, or_false] at hf
    rcases hf with rfl | rfl <;> exact ⟨rfl, by norm_num [fileA, fileB, snapFile, hdr, simAB]⟩
  · intro h
    exact absurd h (by decide)
  · rw [hall]
    simp only [ptc, simAB, List.map_cons, List.map_nil, e1, e2, e3]
    norm_num
  · rw [hall]
    simp [Part.value, simAB]
  · refine .single hdfAB "s.hdf5" ?_ (by simp)
    unfold fnameFormat
    rw [if_pos (by simp [Disk.exists_]), if_pos (show endsHdf5 "s.hdf5" = true by decide)]
  · refine ⟨?_, ?_⟩
    · intro f hf; rw [List.mem_singleton] at hf; subst hf; rfl
    · intro f hf j; rw [List.mem_singleton] at hf; subst hf; simp [hdfAB]
  · intro f hf
    rw [List.mem_singleton] at hf
    subst hf
    refine ⟨.data _ _ _ (by simp) rfl (by simp [hdfAB]),
      .data _ _ _ (by simp) rfl (by simp [hdfAB]), rfl⟩
  · simp [hdfAB, simAB, e1, e2, e3]
  · simp [hdfAB, simAB]
  · simp [exampleInput]
  · simp [exampleInput, allGroups, simAB]
  · simp [exampleInput, allGroups, simAB]
  · simp [exampleInput, allGroups, simAB]
  · simp [exampleInput, allSubhalos, simAB]
  · rw [hcen]; simp [resolved]

/-- The files of `exampleSim` meet the hypotheses of `C96_from_files_partial`, if units are positive. -/
example (c : Cfg ℝ) (hc : c.Pos) : StoredIn exampleMachine exampleInput.snapshot 1 exampleSim ∧
    Sensible exampleSim.pos exampleSim.mass exampleSim.box (centrals exampleSim.groups) ∧
    (∀ o ∈ centrals exampleSim.groups, 0 < exampleMachine.f32 (o.2 * (c.inL / mpch c.h))) ∧
    GoodSelection [0] (resolved exampleInput.minPtcs (objectsRead exampleMachine.f32 c exampleSim)).length := by
  obtain ⟨h1, h2, h3, h4⟩ := exampleSim_files
  have hcen : centrals exampleSim.groups = [([0, 1], 4)] := by
    simp [centrals, exampleSim, startOf, List.range_succ]
  have hm : 0 < mpch c.h := by have := hc.h; unfold mpch; positivity
  refine ⟨h1, h3, ?_, by simp, by simp, ?_⟩
  · rw [hcen]
    intro o ho
    rw [List.mem_singleton] at ho
    subst ho
    exact mul_pos (by norm_num) (div_pos hc.inL hm)
  · simp [objectsRead, hcen, resolved, exampleInput]

end Verif.Api
