import Verif.Api.Gadget

/-!
# Objects made from Gadget files (C100, C101, C102)
-/

namespace Verif.Api

open Verif.Units Verif.Catalogue Verif.Gadget

theorem mapM_id_some {α β : Type} (f : α → β) (l : List α) : (l.map fun x => some (f x)).mapM id = some (l.map f) := by
  induction l with
  | nil => rfl
  | cons a l ih => simp [List.mapM_cons, ih]

theorem filterMap_filter_map {α β γ : Type} (f : α → Option β) (q : β → Bool) (conv : β → γ) (l : List α) :
    ((l.filterMap f).filter q).map conv = l.filterMap fun p => ((f p).filter q).map conv := by
  induction l with
  | nil => rfl
  | cons a l ih =>
    cases h : f a with
    | none => simp [h, ih]
    | some b => cases hq : q b <;> simp [h, hq, ih]

/-- The groups with radii in internal units, single precision. -/
noncomputable def convGroups (f32 : ℝ → ℝ) (factor : ℝ) (gs : List (Catalogue.Group ℝ)) :
    List (Catalogue.Group ℝ) := gs.map fun g => { g with r200 := f32 (g.r200 * factor) }

theorem startOf_convGroups (f32 : ℝ → ℝ) (factor : ℝ) (gs : List (Catalogue.Group ℝ)) (p : Nat) :
    startOf (convGroups f32 factor gs) p = startOf gs p := by
  unfold startOf convGroups
  rw [← List.map_take, List.map_map]
  rfl

/-- The catalogue consists of the central subhalos with enough particles. -/
theorem expected_eq (f32 : ℝ → ℝ) (factor : ℝ) (gs : List (Catalogue.Group ℝ)) (m : Int) :
    expectedObjects m (convGroups f32 factor gs) = (resolved m (centrals gs)).map fun o =>
      (o.1.map fun n : Nat => (n : Int), f32 (o.2 * factor), (o.1.length : Int)) := by
  unfold resolved centrals
  rw [filterMap_filter_map]
  unfold expectedObjects
  rw [show (convGroups f32 factor gs).length = gs.length by simp [convGroups]]
  apply List.filterMap_congr
  intro p _
  unfold objectOf
  rw [startOf_convGroups]
  cases hg : gs[p]? with
  | none => simp [convGroups, hg]
  | some g =>
    obtain ⟨sz, r, subs⟩ := g
    cases subs with
    | nil => simp [convGroups, hg]
    | cons c cs =>
      by_cases hm : m ≤ (c : Int)
      · simp [convGroups, hg, hm, Option.filter, Function.comp_def]
      · simp [convGroups, hg, hm, Option.filter]

theorem readTables_eq (c : Cfg ℝ) (mc : Machine) (i : GInput) (pt : Nat) (hpt : getPartType i.objType = .ok pt)
    (hw : i.rvirOrR200 = "Rvir" ∨ i.rvirOrR200 = "R200") (hsize : 0 < mc.size) (s : Simulation)
    (hg : GroupsOf i.groupFiles i.rvirOrR200 pt s) (hne : s.groups ≠ []) :
    readTables c mc i = .ok ⟨s.groups.map fun g => g.subs.length, s.groups.flatMap fun g => g.subs,
      s.groups.map fun g => g.fofSize, s.groups.map fun g => mc.f32 (g.r200 * (c.inL / mpch c.h))⟩ := by
  unfold readTables
  rw [internalLM_eq, hpt]
  simp only
  rw [C52_catalogue _ _ _ _ hw _ _ hg.files_ne _ hsize]
  simp only
  rw [mapM_id_some, mapM_id_some, mapM_id_some, mapM_id_some]
  simp only
  have hr : ((allGroups i.groupFiles).map fun g =>
      mc.f32 ((if i.rvirOrR200 = "Rvir" then g.rTopHat else g.rMean) * (c.inL / mpch c.h))) =
      s.groups.map fun g => mc.f32 (g.r200 * (c.inL / mpch c.h)) := by
    have := congrArg (List.map fun r => mc.f32 (r * (c.inL / mpch c.h))) hg.radii
    rw [List.map_map, List.map_map] at this
    exact this
  rw [hr, hg.nSubs, hg.sizes, hg.subs, if_neg (by simpa using hne)]

theorem div_div_units (x l u : ℝ) (hl : l ≠ 0) : x / (l / u) = x * (u / l) := by
  by_cases hu : u = 0
  · subst hu; simp
  · field_simp

theorem mapM_rowVec (factor : ℝ) (l : List (Vec ℝ)) :
    ((l.map fun x => [x 0, x 1, x 2]).map fun row : List ℝ => some (row.map fun x => x * factor)).mapM rowVec =
      some (l.map fun p a => p a * factor) := by
  induction l with
  | nil => rfl
  | cons a l ih =>
    simp only [List.map_cons, List.mapM_cons, List.map_nil, rowVec, Option.bind_eq_bind, Option.bind_some] at ih ⊢
    rw [ih]
    simp only [Option.bind_some, Option.pure_def, Option.some.injEq, List.cons.injEq, and_true]
    funext j
    fin_cases j <;> rfl

theorem mapM_rowNum (factor : ℝ) (l : List ℝ) :
    ((l.map fun x => [x]).map fun row : List ℝ => some (row.map fun x => x * factor)).mapM rowNum =
      some (l.map fun x => x * factor) := by
  induction l with
  | nil => rfl
  | cons a l ih =>
    simp only [List.map_cons, List.mapM_cons, List.map_nil, rowNum, Option.bind_eq_bind, Option.bind_some] at ih ⊢
    rw [ih]
    rfl

theorem mpch_ne (c : Cfg ℝ) (hc : c.Pos) : mpch c.h ≠ 0 := by
  have := hc.h
  unfold mpch
  positivity

theorem msunh10_ne (c : Cfg ℝ) (hc : c.Pos) : msunh10 c.h ≠ 0 := by
  have := hc.h
  unfold msunh10
  positivity

theorem flatMap_converted (u : UnitFac) (b : Block) (hb : b ≠ .vel) (files : List H5) (say : H5 → List (List ℝ)) :
    (files.flatMap fun f => converted u f b (say f)) =
      (files.flatMap say).map fun row => some (row.map fun x => x / u.of b) := by
  rw [List.map_flatMap]
  apply List.flatMap_congr
  intro f _
  unfold converted
  simp [hb]

theorem readParticles_eq (c : Cfg ℝ) (hc : c.Pos) (mc : Machine) (i : GInput) (pt : Nat)
    (hpt : getPartType i.objType = .ok pt) (s : Simulation) (hs : SnapshotOf mc.disk i.snapshot pt s) :
    readParticles c mc i = .ok (s.pos.map fun p a => p a * (c.inL / mpch c.h),
      s.mass.map fun x => x * (c.inM / msunh10 c.h)) := by
  obtain ⟨files, pos, mass, h1, h2, h3, h4, h5⟩ := hs
  unfold readParticles
  rw [internalLM_eq, hpt]
  simp only
  rw [C57_hdf5_partial _ _ files h1 h2 _ _ _ _ (by simp) (fun f _ => pos f)
      (fun f hf pt' hpt' => by rw [List.mem_singleton] at hpt'; subst hpt'; exact (h3 f hf).1),
    C57_hdf5_partial _ _ files h1 h2 _ _ _ _ (by simp) (fun f _ => mass f)
      (fun f hf pt' hpt' => by rw [List.mem_singleton] at hpt'; subst hpt'; exact (h3 f hf).2.1)]
  simp only [List.flatMap_cons, List.flatMap_nil, List.append_nil]
  rw [flatMap_converted _ _ (by simp), flatMap_converted _ _ (by simp), h4, h5]
  have e1 : ∀ x : ℝ, x / (unitFac c (mpch c.h) (msunh10 c.h)).of .pos = x * (c.inL / mpch c.h) :=
    fun x => div_div_units x _ _ (mpch_ne c hc)
  have e2 : ∀ x : ℝ, x / (unitFac c (mpch c.h) (msunh10 c.h)).of .mass = x * (c.inM / msunh10 c.h) :=
    fun x => div_div_units x _ _ (msunh10_ne c hc)
  simp only [e1, e2]
  rw [mapM_rowVec, mapM_rowNum]

theorem readBox_eq (c : Cfg ℝ) (mc : Machine) (i : GInput) (pt : Nat)
    (s : Simulation) (hs : SnapshotOf mc.disk i.snapshot pt s) :
    readBox c mc i = .ok (s.box * (c.inL / mpch c.h)) := by
  obtain ⟨files, pos, mass, h1, h2, h3, h4, h5⟩ := hs
  have hbox : headerBox mc.disk mc.f64 i.snapshot = .ok s.box := by
    unfold headerBox
    cases h1 with
    | single f name hname h =>
      simp only [hname, Except.bind, h, (h3 f List.mem_cons_self).2.2]
    | several files hn hno h =>
      have h0 := h 0 (by omega)
      have hname : fnameFormat mc.disk.exists_ i.snapshot = .ok (i.snapshot ++ ".0.hdf5", .hdf5) := by
        have e1 := hno i.snapshot (by simp)
        have e2 := hno (i.snapshot ++ ".0") (by simp)
        have e3 := hno (i.snapshot ++ ".hdf5") (by simp)
        have hn0 : h5Name i.snapshot 0 = i.snapshot ++ ".0.hdf5" := by
          unfold h5Name
          rw [String.append_assoc, String.append_assoc]
          rfl
        rw [hn0] at h0
        unfold fnameFormat
        rw [if_neg (by simp [e1]), if_neg (by simp [e2]), if_neg (by simp [e3]),
          if_pos (by simp [Disk.exists_, h0])]
      have hn0 : h5Name i.snapshot 0 = i.snapshot ++ ".0.hdf5" := by
        unfold h5Name
        rw [String.append_assoc, String.append_assoc]
        rfl
      rw [hn0] at h0
      simp only [hname, Except.bind, h0, (h3 _ (List.getElem_mem _)).2.2]
  unfold readBox
  rw [internalLM_eq, hbox]

theorem readParticles_binary (c : Cfg ℝ) (hc : c.Pos) (mc : Machine) (i : GInput) (pt : Nat)
    (hpt : getPartType i.objType = .ok pt) (s : Simulation) (hs : BinarySnapshotOf mc.disk mc.f64 i.snapshot pt s) :
    readParticles c mc i = .ok (s.pos.map fun p a => p a * (c.inL / mpch c.h),
      s.mass.map fun x => x * (c.inM / msunh10 c.h)) := by
  obtain ⟨big, idw, files, massarr, hidw, h1, h2, h3, h4, h5, h6⟩ := hs
  obtain ⟨f, rest, name, hfiles, hname, hbin, hname'⟩ := h1.first
  have hpt6 : pt < 6 := by
    unfold getPartType at hpt
    split_ifs at hpt <;> · cases hpt; decide
  have hpts : ∀ pt' ∈ [pt], pt' < 6 := fun pt' h => by rw [List.mem_singleton] at h; subst h; exact hpt6
  unfold readParticles
  rw [internalLM_eq, hpt]
  simp only
  rw [C57_binary_partial mc.disk i.snapshot big idw hidw files h1 h2 massarr (fun f hf => (h3 f hf).1) f (by rw [hfiles]; rfl)
      mc.f64 _ .pos [pt] hpts (by simp) (by simp) (by simp),
    C57_binary_partial mc.disk i.snapshot big idw hidw files h1 h2 massarr (fun f hf => (h3 f hf).1) f (by rw [hfiles]; rfl)
      mc.f64 _ .mass [pt] hpts (by simp) (by simp)
      (fun _ pt' h => by rw [List.mem_singleton] at h; subst h; exact h4)]
  simp only [List.flatMap_cons, List.flatMap_nil, List.append_nil]
  have e1 : ∀ x : ℝ, x / (unitFac c (mpch c.h) (msunh10 c.h)).of .pos = x * (c.inL / mpch c.h) :=
    fun x => div_div_units x _ _ (mpch_ne c hc)
  have e2 : ∀ x : ℝ, x / (unitFac c (mpch c.h) (msunh10 c.h)).of .mass = x * (c.inM / msunh10 c.h) :=
    fun x => div_div_units x _ _ (msunh10_ne c hc)
  have k1 : ((allOf files pt).map fun p => some ((p.value massarr pt .pos).map fun x =>
      physical mc.f64 (mc.f64 f.header.time) .pos x / (unitFac c (mpch c.h) (msunh10 c.h)).of .pos)) =
      (s.pos.map fun x => [x 0, x 1, x 2]).map fun row : List ℝ => some (row.map fun x => x * (c.inL / mpch c.h)) := by
    rw [← h5, List.map_map]
    apply List.map_congr_left
    intro p _
    simp [Part.value, Part.stored, physical, e1, Function.comp_def]
  have k2 : ((allOf files pt).map fun p => some ((p.value massarr pt .mass).map fun x =>
      physical mc.f64 (mc.f64 f.header.time) .mass x / (unitFac c (mpch c.h) (msunh10 c.h)).of .mass)) =
      (s.mass.map fun x => [x]).map fun row : List ℝ => some (row.map fun x => x * (c.inM / msunh10 c.h)) := by
    rw [← h6, List.map_map]
    apply List.map_congr_left
    intro p _
    simp [physical, e2, Function.comp_def]
  rw [k1, k2, mapM_rowVec, mapM_rowNum]

theorem readBox_binary (c : Cfg ℝ) (mc : Machine) (i : GInput) (pt : Nat)
    (s : Simulation) (hs : BinarySnapshotOf mc.disk mc.f64 i.snapshot pt s) :
    readBox c mc i = .ok (s.box * (c.inL / mpch c.h)) := by
  obtain ⟨big, idw, files, massarr, hidw, h1, h2, h3, h4, h5, h6⟩ := hs
  obtain ⟨f, rest, name, hfiles, hname, hbin, hname'⟩ := h1.first
  have hf : f ∈ files := by rw [hfiles]; exact List.mem_cons_self
  have hbox : headerBox mc.disk mc.f64 i.snapshot = .ok s.box := by
    unfold headerBox
    simp only [hname, Except.bind, hbin, header_bytes (h2.valid f hf) big, Except.map, (h3 f hf).2]
  unfold readBox
  rw [internalLM_eq, hbox]

theorem readParticles_stored (c : Cfg ℝ) (hc : c.Pos) (mc : Machine) (i : GInput) (pt : Nat)
    (hpt : getPartType i.objType = .ok pt) (s : Simulation) (hs : StoredIn mc i.snapshot pt s) :
    readParticles c mc i = .ok (s.pos.map fun p a => p a * (c.inL / mpch c.h),
      s.mass.map fun x => x * (c.inM / msunh10 c.h)) :=
  hs.elim (readParticles_eq c hc mc i pt hpt s) (readParticles_binary c hc mc i pt hpt s)

theorem readBox_stored (c : Cfg ℝ) (mc : Machine) (i : GInput) (pt : Nat)
    (s : Simulation) (hs : StoredIn mc i.snapshot pt s) : readBox c mc i = .ok (s.box * (c.inL / mpch c.h)) :=
  hs.elim (readBox_eq c mc i pt s) (readBox_binary c mc i pt s)

theorem catalogued_iff (f32 : ℝ → ℝ) (factor : ℝ) (gs : List (Catalogue.Group ℝ)) (hne : gs ≠ []) (m : Int)
    (out : Option (List Int × List ℝ × List Int)) :
    Catalogued ⟨gs.map fun g => g.subs.length, gs.flatMap fun g => g.subs, gs.map fun g => g.fofSize,
      gs.map fun g => f32 (g.r200 * factor)⟩ m out ↔
    out = some (((resolved m (centrals gs)).map Prod.fst).flatten.map fun n : Nat => (n : Int),
      (resolved m (centrals gs)).map (fun o => f32 (o.2 * factor)),
      (resolved m (centrals gs)).map fun o => (o.1.length : Int)) := by
  have h := C19_catalogue (0 : ℝ) (convGroups f32 factor gs) (by simpa [convGroups] using hne) m out
  rw [expected_eq] at h
  have e1 : tableNbShs (convGroups f32 factor gs) = (gs.map fun g => g.subs.length).map fun n : Nat => (n : Int) := by
    simp [tableNbShs, convGroups, Function.comp_def]
  have e2 : tableShLen (convGroups f32 factor gs) = (gs.flatMap fun g => g.subs).map fun n : Nat => (n : Int) := by
    unfold tableShLen convGroups
    rw [List.flatMap_map]
  have e3 : tableFofSizes (convGroups f32 factor gs) = (gs.map fun g => g.fofSize).map fun n : Nat => (n : Int) := by
    simp [tableFofSizes, convGroups, Function.comp_def]
  have e4 : tableR200 (convGroups f32 factor gs) = gs.map fun g => f32 (g.r200 * factor) := by
    simp [tableR200, convGroups, Function.comp_def]
  rw [e1, e2, e3, e4] at h
  unfold Catalogued
  rw [h]
  simp [List.map_flatten, Function.comp_def]

/-- What the readers return determines the object. -/
theorem construct_of_reads (c : Cfg ℝ) (mc : Machine) (hrank : mc.rank = 0) (i : GInput) (s : Simulation)
    (hlen : s.pos.length = s.mass.length) (hne : centrals s.groups ≠ [])
    (ht : readTables c mc i = .ok ⟨s.groups.map fun g => g.subs.length, s.groups.flatMap fun g => g.subs,
      s.groups.map fun g => g.fofSize, s.groups.map fun g => mc.f32 (g.r200 * (c.inL / mpch c.h))⟩)
    (hp : readParticles c mc i = .ok (s.pos.map fun p a => p a * (c.inL / mpch c.h),
      s.mass.map fun x => x * (c.inM / msunh10 c.h)))
    (hb : readBox c mc i = .ok (s.box * (c.inL / mpch c.h))) (out : Except GErr Obj) :
    GadgetConstruct c mc i out ↔
    ∃ o, construct c ⟨s.pos, s.mass, .nested ((centrals s.groups).map Prod.fst),
      .array ((centrals s.groups).map Prod.snd), s.box, i.minPtcs, i.center⟩ = .ok o ∧
      out = .ok { o with r200 := o.r200.map mc.f32 } := by
  have hgne : s.groups ≠ [] := by rintro h0; exact hne (by simp [h0, centrals])
  have hcat := catalogued_iff mc.f32 (c.inL / mpch c.h) s.groups hgne i.minPtcs
  rw [construct_eq c s.pos s.mass s.box (centrals s.groups) i.minPtcs i.center hlen hne]
  have hnat : ∀ l : List Nat, (l.map fun n : Nat => (n : Int)).map Int.toNat = l := by
    intro l; simp [Function.comp_def]
  constructor
  · intro h
    refine ⟨_, rfl, ?_⟩
    cases h with
    | tables e h => rw [ht] at h; cases h
    | particles e h => rw [hp] at h; cases h
    | box e h => rw [hb] at h; cases h
    | other hr => exact absurd hrank hr
    | noCatalogue hr t ht' hcat' =>
      rw [ht] at ht'
      obtain rfl := Except.ok.inj ht'
      exact absurd ((hcat _).1 hcat') (by simp)
    | finished hr t ht' p hp' b hb' cat r sizes hcat' =>
      rw [ht] at ht'
      obtain rfl := Except.ok.inj ht'
      rw [hp] at hp'
      obtain rfl := Except.ok.inj hp'
      rw [hb] at hb'
      obtain rfl := Except.ok.inj hb'
      have := Option.some.inj ((hcat _).1 hcat')
      simp only [Prod.mk.injEq] at this
      obtain ⟨rfl, rfl, rfl⟩ := this
      rw [if_neg (by simpa using hlen)]
      simp [Function.comp_def, List.map_flatten]
  · rintro ⟨o, ho, rfl⟩
    obtain rfl := Except.ok.inj ho
    have := GadgetConstruct.finished (c := c) hrank _ ht _ hp _ hb _ _ _ ((hcat _).2 rfl)
    rw [if_neg (by simpa using hlen)] at this
    simpa [Function.comp_def, List.map_flatten] using this

/-! ## C100 -/

/-- C100. Take a simulation stored in a snapshot (HDF5 or binary, one file or several) and group files, in units
`c.inL`, `c.inM`.  The object made from the files is (on process 0, whatever the number of processes) the
object made from the arrays of positions and masses with the central subhalos as objects, up to rounding
of the radii to single precision. -/
theorem C100_files_as_arrays (c : Cfg ℝ) (hc : c.Pos) (mc : Machine) (hrank : mc.rank = 0) (hsize : 0 < mc.size)
    (i : GInput) (pt : Nat) (hpt : getPartType i.objType = .ok pt)
    (hw : i.rvirOrR200 = "Rvir" ∨ i.rvirOrR200 = "R200") (s : Simulation)
    (hlen : s.pos.length = s.mass.length)
    (hs : StoredIn mc i.snapshot pt s) (hg : GroupsOf i.groupFiles i.rvirOrR200 pt s)
    (hne : centrals s.groups ≠ []) (out : Except GErr Obj) :
    GadgetConstruct c mc i out ↔
    ∃ o, construct c ⟨s.pos, s.mass, .nested ((centrals s.groups).map Prod.fst),
      .array ((centrals s.groups).map Prod.snd), s.box, i.minPtcs, i.center⟩ = .ok o ∧
      out = .ok { o with r200 := o.r200.map mc.f32 } := by
  have hgne : s.groups ≠ [] := by rintro h0; exact hne (by simp [h0, centrals])
  exact construct_of_reads c mc hrank i s hlen hne (readTables_eq c mc i pt hpt hw hsize s hg hgne)
    (readParticles_stored c hc mc i pt hpt s hs) (readBox_stored c mc i pt s hs) out

/-- The radii do not matter for masses and centres. -/
theorem getMassesCenters_r200 (c : Cfg ℝ) (choose : Nat → List Nat) (limit : Nat) (o : Obj) (r : List ℝ)
    (sel : List Int) (out : Except Err (List (Vec ℝ × ℝ)))
    (h : GetMassesCenters c choose limit { o with r200 := r } sel out) :
    GetMassesCenters c choose limit o sel out := by
  cases h with
  | rejected e h => exact .rejected e h
  | diverges parts h hc => exact .diverges parts h hc
  | finished parts h centers hc ws ex l m hu => exact GetMassesCenters.finished (o := o) parts h centers hc ws ex l m hu

/-- C100. From the files to masses and centres: the `z`-th object is the `z`-th central subhalo with
enough particles, its mass (in grams) is the total mass of its particles in the snapshot, and its centre
(in cm) is the mean position of periodic images of its particles. -/
theorem C100_masses_centers (c c' : Cfg ℝ) (hc : c.Pos) (hc' : c'.Pos) (hh : c'.h = c.h) (mc : Machine)
    (hrank : mc.rank = 0) (hsize : 0 < mc.size) (i : GInput) (hmin : 1 ≤ i.minPtcs) (pt : Nat)
    (hpt : getPartType i.objType = .ok pt) (hw : i.rvirOrR200 = "Rvir" ∨ i.rvirOrR200 = "R200")
    (s : Simulation) (hsens : Sensible s.pos s.mass s.box (centrals s.groups))
    (hs : StoredIn mc i.snapshot pt s) (hg : GroupsOf i.groupFiles i.rvirOrR200 pt s)
    (choose : Nat → List Nat) (hch : ∀ n, 0 < n → ∃ j ∈ choose n, j < n) (limit : Nat) (o : Obj)
    (ho : GadgetConstruct c mc i (.ok o))
    (sel : List Int) (hsel : GoodSelection sel (resolved i.minPtcs (centrals s.groups)).length)
    (out : Except Err (List (Vec ℝ × ℝ))) (hrun : GetMassesCenters c' choose limit o sel out) :
    (out = .error .recursion ∧ i.center = .mode) ∨
    ∃ res, out = .ok res ∧ res.length = sel.length ∧
      ∀ (k : Nat) (z : Int) (obj : List Nat × ℝ), sel[k]? = some z →
        (resolved i.minPtcs (centrals s.groups))[z.toNat]? = some obj →
        ∃ centre mass, res[k]? = some (centre, mass) ∧
          mass * c'.outM = totalMass (particlesOf s.pos s.mass obj.1) * c.inM ∧
          (∀ a, 0 ≤ centre a ∧ centre a * c'.outL < s.box * c.inL) ∧
          MeanOfImages s.box (decide (i.center = .com)) (particlesOf s.pos s.mass obj.1)
            fun a => centre a * c'.outL / c.inL := by
  obtain ⟨a, ha, hoa⟩ := (C100_files_as_arrays c hc mc hrank hsize i pt hpt hw s hsens.lengths hs hg
    hsens.objects _).1 ho
  obtain rfl := Except.ok.inj hoa
  exact C95_masses_centers c c' hc hc' hh s.pos s.mass s.box (centrals s.groups) i.minPtcs hmin i.center
    hsens choose hch limit a ha sel hsel out (getMassesCenters_r200 _ _ _ _ _ _ _ hrun)

/-! ## C101 -/

/-- C101 is false: on processes other than 0 no object can be made, whatever the files contain. -/
theorem C101_other_processes_refuted (c : Cfg ℝ) (mc : Machine) (hrank : mc.rank ≠ 0) (i : GInput) (o : Obj) :
    ¬ GadgetConstruct c mc i (.ok o) := by
  intro h
  generalize hx : (Except.ok o : Except GErr Obj) = x at h
  cases h with
  | finished hr => exact hrank hr
  | tables | particles | box | other | noCatalogue => cases hx

/-- C101 (partial). Process 0 always makes an object of good files, and the others fail with
`AttributeError` and nothing else. -/
theorem C101_process_partial (c : Cfg ℝ) (hc : c.Pos) (mc : Machine) (hsize : 0 < mc.size)
    (i : GInput) (pt : Nat) (hpt : getPartType i.objType = .ok pt)
    (hw : i.rvirOrR200 = "Rvir" ∨ i.rvirOrR200 = "R200") (s : Simulation)
    (hlen : s.pos.length = s.mass.length)
    (hs : StoredIn mc i.snapshot pt s) (hg : GroupsOf i.groupFiles i.rvirOrR200 pt s)
    (hne : centrals s.groups ≠ []) :
    (mc.rank = 0 → ∃ o, ∀ out, GadgetConstruct c mc i out ↔ out = .ok o) ∧
    (mc.rank ≠ 0 → ∀ out, GadgetConstruct c mc i out ↔ out = .error .attribute) := by
  constructor
  · intro hr
    have h := C100_files_as_arrays c hc mc hr hsize i pt hpt hw s hlen hs hg hne
    obtain ⟨o, ho⟩ : ∃ o, construct c ⟨s.pos, s.mass, .nested ((centrals s.groups).map Prod.fst),
      .array ((centrals s.groups).map Prod.snd), s.box, i.minPtcs, i.center⟩ = .ok o :=
      ⟨_, construct_eq c s.pos s.mass s.box (centrals s.groups) i.minPtcs i.center hlen hne⟩
    refine ⟨{ o with r200 := o.r200.map mc.f32 }, fun out => (h out).trans ⟨?_, ?_⟩⟩
    · rintro ⟨o', ho', rfl⟩
      rw [ho] at ho'
      obtain rfl := Except.ok.inj ho'
      rfl
    · rintro rfl
      exact ⟨o, ho, rfl⟩
  · intro hr out
    have hgne : s.groups ≠ [] := by rintro h0; exact hne (by simp [h0, centrals])
    have ht := readTables_eq c mc i pt hpt hw hsize s hg hgne
    have hp := readParticles_stored c hc mc i pt hpt s hs
    have hb := readBox_stored c mc i pt s hs
    constructor
    · intro h
      cases h with
      | tables e h => rw [ht] at h; cases h
      | particles e h => rw [hp] at h; cases h
      | box e h => rw [hb] at h; cases h
      | other => rfl
      | noCatalogue h0 => exact absurd h0 hr
      | finished h0 => exact absurd h0 hr
    · rintro rfl
      exact .other hr _ ht _ hp _ hb

/-! ## C102 -/

/-- C102 (partial). `getXYZMasses` of an object made from files returns the contents of the snapshot, in
the output units and under the assumption that the files are in the input units *at the time of the
query*: if the input units are those at construction, these are the particles which all other methods of
the object use. -/
theorem C102_getter_partial (c c' : Cfg ℝ) (hc' : c'.Pos) (hL : c'.inL = c.inL) (hM : c'.inM = c.inM)
    (mc : Machine) (i : GInput) (pt : Nat) (hpt : getPartType i.objType = .ok pt) (s : Simulation)
    (hs : StoredIn mc i.snapshot pt s) :
    ∃ xyz' masses', gadgetXYZMasses c' mc i = .ok (xyz', masses') ∧
      List.Forall₂ (fun x x' => ∀ a : Fin 3, x' a * c'.outL = x a * c.inL) s.pos xyz' ∧
      List.Forall₂ (fun m m' => m' * c'.outM = m * c.inM) s.mass masses' := by
  have h1 := mpch_ne c' hc'
  have h2 := msunh10_ne c' hc'
  have h3 := hc'.outL.ne'
  have h4 := hc'.outM.ne'
  refine ⟨_, _, by unfold gadgetXYZMasses; rw [internalLM_eq, readParticles_stored c' hc' mc i pt hpt s hs], ?_, ?_⟩
  · simp only [List.map_map, List.forall₂_map_right_iff, List.forall₂_same]
    intro x _ a
    simp only [Function.comp, hL]
    field_simp
  · simp only [List.map_map, List.forall₂_map_right_iff, List.forall₂_same]
    intro x _
    simp only [Function.comp, hM]
    field_simp

/-- C102 is false if the input unit of length is changed after construction: the object keeps its
positions and box, but `getXYZMasses` returns other positions than those the object works with. -/
theorem C102_units_changed_refuted (c c' : Cfg ℝ) (hc : c.Pos) (hc' : c'.Pos) (hh : c'.h = c.h)
    (hL : c'.inL ≠ c.inL) (mc : Machine) (hrank : mc.rank = 0) (hsize : 0 < mc.size) (i : GInput) (pt : Nat)
    (hpt : getPartType i.objType = .ok pt) (hw : i.rvirOrR200 = "Rvir" ∨ i.rvirOrR200 = "R200")
    (s : Simulation) (hlen : s.pos.length = s.mass.length)
    (hs : StoredIn mc i.snapshot pt s) (hg : GroupsOf i.groupFiles i.rvirOrR200 pt s)
    (hne : centrals s.groups ≠ []) (hpos : ∃ x ∈ s.pos, x ≠ 0) (o : Obj)
    (ho : GadgetConstruct c mc i (.ok o)) :
    ∃ xyz m own m', gadgetXYZMasses c' mc i = .ok (xyz, m) ∧ getXYZMasses c' o = .ok (own, m') ∧ xyz ≠ own := by
  obtain ⟨a, ha, hoa⟩ := (C100_files_as_arrays c hc mc hrank hsize i pt hpt hw s hlen hs hg hne _).1 ho
  obtain rfl := Except.ok.inj hoa
  rw [construct_eq c s.pos s.mass s.box (centrals s.groups) i.minPtcs i.center hlen hne] at ha
  obtain rfl := Except.ok.inj ha
  refine ⟨_, _, _, _, by unfold gadgetXYZMasses; rw [internalLM_eq, readParticles_stored c' hc' mc i pt hpt s hs],
    by unfold getXYZMasses; rw [internalLM_eq], ?_⟩
  intro heq
  obtain ⟨x, hx, hx0⟩ := hpos
  simp only [List.map_map] at heq
  have := List.map_inj_left.1 heq x hx
  apply hx0
  funext a
  have h1 := congrFun this a
  simp only [Function.comp, hh] at h1
  have e1 := (mpch_pos hc.h).ne'
  have e2 := hc'.outL.ne'
  have e3 : x a * (c'.inL - c.inL) = 0 := by
    field_simp at h1
    linarith
  rcases mul_eq_zero.1 e3 with h | h
  · exact h
  · exact absurd (sub_eq_zero.1 h) hL

/-! ## A concrete case -/

/-- Three particles of dark matter in one file; the first two form the central subhalo of a group. -/
noncomputable def exampleSim : Simulation :=
  ⟨[![1, 1, 1], ![2, 1, 1], ![5, 5, 5]], [1, 2, 3], 10, [⟨3, 4, [2]⟩]⟩

/-- The snapshot file of `exampleSim`. -/
noncomputable def exampleFile : H5 where
  npart := [0, 3]
  nall := [0, 3]
  massarr := [0, 0]
  filenum := 1
  time := 1
  boxsize := 10
  data := fun b _ => if b = .pos then some [[1, 1, 1], [2, 1, 1], [5, 5, 5]] else some [[1], [2], [3]]
  ids := fun _ => none

/-- The arguments with which a user asks for `exampleSim`. -/
noncomputable def exampleInput : GInput :=
  ⟨"s.hdf5", [⟨some [⟨fun _ => 3, 4, 5, 1⟩], some [fun _ => 2]⟩], "dm", "Rvir", 2, .com⟩

/-- A computer on whose disk `exampleFile` is, two MPI processes. -/
noncomputable def exampleMachine : Machine :=
  ⟨⟨fun _ => none, fun n => if n = "s.hdf5" then some exampleFile else none⟩, fun _ => 0, id, 2, 0, 10⟩

/-- The hypotheses of C100, C101 and C102 are satisfied by the files of `exampleSim`. -/
theorem exampleSim_files : StoredIn exampleMachine "s.hdf5" 1 exampleSim ∧
    GroupsOf exampleInput.groupFiles "Rvir" 1 exampleSim ∧
    Sensible exampleSim.pos exampleSim.mass exampleSim.box (centrals exampleSim.groups) ∧
    resolved 2 (centrals exampleSim.groups) = [([0, 1], 4)] := by
  have hcen : centrals exampleSim.groups = [([0, 1], 4)] := by
    simp [centrals, exampleSim, startOf, List.range_succ]
  refine ⟨.inl ⟨[exampleFile], fun f => (f.data .pos 1).getD [], fun f => (f.data .mass 1).getD [], ?_, ?_, ?_, ?_, ?_⟩,
    ⟨?_, ?_, ?_, ?_, ?_⟩, ⟨?_, ?_, ?_, ?_, ?_, ?_⟩, ?_⟩
  · refine .single exampleFile "s.hdf5" ?_ ?_
    · unfold fnameFormat
      rw [if_pos (by simp [Disk.exists_, exampleMachine])]
      have : endsHdf5 "s.hdf5" = true := by decide
      rw [if_pos this]
    · simp [exampleMachine]
  · refine ⟨?_, ?_⟩
    · intro f hf; rw [List.mem_singleton] at hf; subst hf; rfl
    · intro f hf j; rw [List.mem_singleton] at hf; subst hf; simp [exampleFile]
  · intro f hf
    rw [List.mem_singleton] at hf
    subst hf
    refine ⟨.data _ _ _ (by simp) rfl (by simp [exampleFile]),
      .data _ _ _ (by simp) rfl (by simp [exampleFile]), rfl⟩
  · simp [exampleFile, exampleSim]
  · simp [exampleFile, exampleSim]
  · simp [exampleInput]
  · simp [exampleInput, allGroups, exampleSim]
  · simp [exampleInput, allGroups, exampleSim]
  · simp [exampleInput, allGroups, exampleSim]
  · simp [exampleInput, allSubhalos, exampleSim]
  · simp [exampleSim]
  · simp [exampleSim]
  · intro x hx a
    simp only [exampleSim, List.mem_cons, List.not_mem_nil, or_false] at hx ⊢
    rcases hx with rfl | rfl | rfl <;> fin_cases a <;> norm_num
  · intro m hm
    simp only [exampleSim, List.mem_cons, List.not_mem_nil, or_false] at hm
    rcases hm with rfl | rfl | rfl <;> norm_num
  · rw [hcen]; simp
  · rw [hcen]
    intro o ho j hj
    rw [List.mem_singleton] at ho
    subst ho
    simp only [List.mem_cons, List.not_mem_nil, or_false] at hj
    rcases hj with rfl | rfl <;> simp [exampleSim]
  · rw [hcen]; simp [resolved]

example : ∃ (mc : Machine) (i : GInput) (s : Simulation), StoredIn mc i.snapshot 1 s ∧
    GroupsOf i.groupFiles i.rvirOrR200 1 s ∧ Sensible s.pos s.mass s.box (centrals s.groups) ∧
    resolved i.minPtcs (centrals s.groups) = [([0, 1], 4)] :=
  ⟨exampleMachine, exampleInput, exampleSim, exampleSim_files⟩

end Verif.Api
