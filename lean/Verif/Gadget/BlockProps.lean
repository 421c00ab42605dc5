import Verif.Gadget.BlockSpec
import Mathlib.Algebra.BigOperators.Ring.List

/-!
# Binary snapshots: particle data (C57, C58)
-/

namespace Verif.Gadget

theorem comps_eq {f : Snap} {idw : Nat} (hv : f.Valid idw) {j : Nat} {p : Part} (hp : p ∈ f.species.getD j [])
    (b : Block) : (p.stored b).length = b.comps := by
  have hmem : f.species.getD j [] ∈ f.species := by
    rw [List.getD_eq_getElem?_getD] at hp ⊢
    cases h : f.species[j]? with
    | none => rw [h] at hp; simp at hp
    | some l => rw [Option.getD_some]; exact List.mem_of_getElem? h
  obtain ⟨h1, h2⟩ := hv.comps _ hmem p hp
  cases b <;> simp [Part.stored, Block.comps, h1, h2]

theorem vals_lt {f : Snap} {idw : Nat} (hv : f.Valid idw) {j : Nat} {p : Part} (hp : p ∈ f.species.getD j [])
    (b : Block) : ∀ x ∈ p.stored b, x < 256 ^ bytesPer idw b := by
  have e8 : (256 : Nat) ^ 8 = 2 ^ 64 := by norm_num
  have hmem : f.species.getD j [] ∈ f.species := by
    rw [List.getD_eq_getElem?_getD] at hp ⊢
    cases h : f.species[j]? with
    | none => rw [h] at hp; simp at hp
    | some l => rw [Option.getD_some]; exact List.mem_of_getElem? h
  obtain ⟨h1, h2, h3, h4⟩ := hv.vals _ hmem p hp
  cases b
  · intro x hx; simp only [bytesPer, e8]; exact h1 x hx
  · intro x hx; simp only [bytesPer, e8]; exact h2 x hx
  · intro x hx; simp only [Part.stored, List.mem_singleton] at hx; subst hx; exact h3
  · intro x hx; simp only [Part.stored, List.mem_singleton] at hx; subst hx; simp only [bytesPer, e8]; exact h4

/-- Bytes of the particles of one type in a block. -/
def Snap.part (f : Snap) (big : Bool) (idw : Nat) (b : Block) (j : Nat) : List Nat :=
  if b = .mass ∧ f.header.massarr.getD j 0 ≠ 0 then []
  else (f.species.getD j []).flatMap fun p => (p.stored b).flatMap (enc big (bytesPer idw b))

theorem hasData_iff (b : Block) (massarr : List Nat) (j : Nat) :
    hasData b massarr j = true ↔ ¬(b = .mass ∧ massarr.getD j 0 ≠ 0) := by
  cases b <;> simp [hasData]

theorem length_part {f : Snap} {idw : Nat} (hv : f.Valid idw) (big : Bool) (b : Block) (j : Nat) :
    (f.part big idw b j).length =
      (if hasData b f.header.massarr j then f.header.npart.getD j 0 else 0) * (bytesPer idw b * b.comps) := by
  unfold Snap.part
  by_cases h : b = .mass ∧ f.header.massarr.getD j 0 ≠ 0
  · rw [if_pos h, if_neg (by rw [hasData_iff]; simpa using h)]; simp
  · rw [if_neg h, if_pos ((hasData_iff _ _ _).mpr h), hv.npart, List.length_flatMap]
    have : (f.species.getD j []).map (fun p => ((p.stored b).flatMap (enc big (bytesPer idw b))).length) =
        (f.species.getD j []).map (fun _ => bytesPer idw b * b.comps) := by
      apply List.map_congr_left
      intro p hp
      rw [List.length_flatMap]
      simp only [length_enc, List.map_const', List.sum_replicate_nat, comps_eq hv hp b, mul_comm]
    rw [this]
    simp

theorem length_parts {f : Snap} {idw : Nat} (hv : f.Valid idw) (big : Bool) (b : Block) (j : Nat) :
    ((List.range j).flatMap (f.part big idw b)).length =
      speciesOffset b f.header.massarr f.header.npart j * (bytesPer idw b * b.comps) := by
  rw [List.length_flatMap, speciesOffset, ← List.sum_map_mul_right]
  congr 1
  apply List.map_congr_left
  intro i _
  exact length_part hv big b i

theorem block_eq_parts (f : Snap) (big : Bool) (idw : Nat) (b : Block) :
    f.block big idw b = (List.range 6).flatMap (f.part big idw b) := rfl

theorem block_split (f : Snap) (big : Bool) (idw : Nat) (b : Block) {j : Nat} (hj : j < 6) :
    ∃ rest, f.block big idw b = (List.range j).flatMap (f.part big idw b) ++ (f.part big idw b j ++ rest) := by
  rw [block_eq_parts]
  have : List.range 6 = List.range j ++ List.range' j (6 - j) := by
    have h := @List.range'_append_1 0 j (6 - j)
    rw [Nat.zero_add, show j + (6 - j) = 6 by omega] at h
    rw [List.range_eq_range', List.range_eq_range', h]
  rw [this, show 6 - j = (6 - j - 1) + 1 by omega, List.range'_succ, List.flatMap_append, List.flatMap_cons]
  exact ⟨_, rfl⟩

/-- Decoding of one particle. -/
theorem particle_enc {f : Snap} {idw : Nat} (hv : f.Valid idw) (big : Bool) (b : Block) {j : Nat} {p : Part}
    (hp : p ∈ f.species.getD j []) :
    particle big (bytesPer idw b) b.comps ((p.stored b).flatMap (enc big (bytesPer idw b))) = p.stored b := by
  have := arrayAt_append big [] [] (bytesPer idw b) (p.stored b) 0 rfl (vals_lt hv hp b) b.comps (comps_eq hv hp b)
    _ rfl
  simpa [arrayAt, particle] using this

/-- Number of the record of a block, from zero. -/
theorem record_of_block (f : Snap) (big : Bool) (idw : Nat) (b : Block) (hb : b = .mass → f.block big idw .mass ≠ []) :
    ∃ h : b.num - 1 < (f.records big idw).length, (f.records big idw)[b.num - 1] = f.block big idw b := by
  unfold Snap.records
  cases b
  · exact ⟨by simp [Block.num], by simp [Block.num]⟩
  · exact ⟨by simp [Block.num], by simp [Block.num]⟩
  · exact ⟨by simp [Block.num], by simp [Block.num]⟩
  · have h := hb rfl
    simp [h, Block.num]

theorem records_small {f : Snap} {idw : Nat} (hv : f.Valid idw) (big : Bool) :
    ∀ r ∈ f.records big idw, r.length < 2 ^ 32 := by
  intro r hr
  unfold Snap.records at hr
  have hh : (headerBytes big f.header f.pad).length < 2 ^ 32 := by
    rw [length_headerBytes big _ hv.header _ hv.pad]; norm_num
  rcases List.mem_append.mp hr with hr | hr
  · simp only [List.mem_cons, List.not_mem_nil, or_false] at hr
    rcases hr with rfl | rfl | rfl | rfl
    · exact hh
    · exact hv.small big _
    · exact hv.small big _
    · exact hv.small big _
  · split at hr
    · simp at hr
    · simp only [List.mem_singleton] at hr
      subst hr
      exact hv.small big _

theorem findBlock_bytes {f : Snap} {idw : Nat} (hv : f.Valid idw) (big : Bool) (b : Block)
    (hb : b = .mass → f.block big idw .mass ≠ []) :
    ∃ off rest, findBlock (f.bytes big idw) false big b.num = .ok (off, (f.block big idw b).length) ∧
      (f.bytes big idw).drop off = f.block big idw b ++ rest := by
  obtain ⟨hk, hget⟩ := record_of_block f big idw b hb
  have h := findFrom_records big (f.records big idw) (records_small hv big) [] 1 (b.num - 1) hk
  have hnum : 1 + (b.num - 1) = b.num := by cases b <;> rfl
  simp only [List.nil_append, List.length_nil, Nat.zero_add, hnum, hget] at h
  obtain ⟨off, size, h1, h2⟩ := C55_found big (f.records big idw) (records_small hv big) (b.num - 1) hk
  have hnum' : b.num - 1 + 1 = b.num := by cases b <;> rfl
  rw [hnum', findBlock, h] at h1
  simp only [Except.ok.injEq, Prod.mk.injEq] at h1
  obtain ⟨rfl, rfl⟩ := h1
  refine ⟨_, ((f.bytes big idw).drop (recordOffset (f.records big idw) (b.num - 1))).drop (f.block big idw b).length,
    h, ?_⟩
  · rw [hget] at h2
    conv_lhs => rw [← List.take_append_drop (f.block big idw b).length
      ((f.bytes big idw).drop (recordOffset (f.records big idw) (b.num - 1)))]
    congr 1

theorem header_bytes {f : Snap} {idw : Nat} (hv : f.Valid idw) (big : Bool) :
    snapshotHeader (f.bytes big idw) = .ok (false, big, f.header) := by
  have : ∃ rest, f.bytes big idw = headerRecord big false f.header f.pad ++ rest := by
    unfold Snap.bytes Snap.records headerRecord
    rw [List.cons_append, List.map_cons, List.flatten_cons]
    exact ⟨_, rfl⟩
  obtain ⟨rest, h⟩ := this
  rw [h]
  exact C90_header big false f.header hv.header f.pad hv.pad rest

/-- One pass of the loop. -/
theorem readOne_bytes {f : Snap} {idw : Nat} (hv : f.Valid idw) (big : Bool) (b : Block) (ptype : Nat)
    (hp : ptype < 6) (hb : b = .mass → f.block big idw .mass ≠ [])
    (hd : hasData b f.header.massarr ptype = true) (first : Bool) (s : Loop)
    (hw : (if first ∧ b = .id ∧ (f.block big idw b).length =
      s.width * speciesOffset b f.header.massarr f.header.npart 6 * 2 then 8 else s.width) = bytesPer idw b) :
    readOne b f.header.massarr ptype false big first f.header.npart (f.bytes big idw) s =
      (assignSlice s.data s.next (f.species.getD ptype []).length
        ((f.species.getD ptype []).map fun p => store b (p.stored b))).map
          fun data => ⟨s.next + (f.species.getD ptype []).length, bytesPer idw b, data⟩ := by
  obtain ⟨off, rest, h1, h2⟩ := findBlock_bytes hv big b hb
  have htot : (f.block big idw b).length =
      speciesOffset b f.header.massarr f.header.npart 6 * (bytesPer idw b * b.comps) := length_parts hv big b 6
  obtain ⟨r, hsplit⟩ := block_split f big idw b hp
  unfold readOne
  simp only [h1, Except.bind, hw]
  rw [if_neg (by rw [htot]; simp [mul_comm])]
  rw [hv.npart ptype]
  have hdrop : (f.bytes big idw).drop (off + speciesOffset b f.header.massarr f.header.npart ptype *
      (bytesPer idw b * b.comps)) = f.part big idw b ptype ++ (r ++ rest) := by
    rw [← List.drop_drop, h2, hsplit, ← length_parts hv big b ptype]
    simp only [List.append_assoc]
    rw [List.drop_left]
  have hpart : f.part big idw b ptype =
      ((f.species.getD ptype []).map fun p => (p.stored b).flatMap (enc big (bytesPer idw b))).flatten := by
    unfold Snap.part
    rw [if_neg ((hasData_iff _ _ _).mp hd), List.flatMap_def]
  have hitems := items_append (bytesPer idw b * b.comps)
    ((f.species.getD ptype []).map fun p => (p.stored b).flatMap (enc big (bytesPer idw b))) (by
      intro c hc
      obtain ⟨p, hpm, rfl⟩ := List.mem_map.mp hc
      rw [List.length_flatMap]
      simp only [length_enc, List.map_const', List.sum_replicate_nat, comps_eq hv hpm b, mul_comm]) (r ++ rest)
  rw [List.length_map] at hitems
  rw [hdrop, hpart, hitems, List.map_map]
  congr 2
  apply List.map_congr_left
  intro p hpm
  simp only [Function.comp, particle_enc hv big b hpm]

theorem assignSlice_prefix {α : Type} (done xs : List α) (rest : Nat) (h : xs.length ≤ rest) :
    assignSlice (done.map some ++ List.replicate rest none) done.length xs.length xs =
      .ok ((done ++ xs).map some ++ List.replicate (rest - xs.length) none) := by
  unfold assignSlice
  have hm : min xs.length ((done.map some ++ List.replicate rest (none : Option α)).length - done.length) =
      xs.length := by
    simp; omega
  simp only [hm, if_true]
  congr 1
  have hl : done.length = (done.map some).length := by simp
  rw [hl, List.take_left, ← List.drop_drop, List.drop_left, List.drop_replicate, List.map_append]

theorem stored_value {b : Block} {massarr : List Nat} {j : Nat} (hd : hasData b massarr j = true) (p : Part) :
    p.value massarr j b = p.stored b := by
  unfold Part.value
  rw [if_neg ((hasData_iff _ _ _).mp hd)]

/-- A block is missing in a file only if it is the mass block and would be empty. -/
def Present (files : List Snap) (b : Block) : Prop :=
  b = .mass → ∀ f ∈ files, f.block false 4 .mass ≠ []

theorem block_mass_nil (f : Snap) (idw idw' : Nat) (big big' : Bool) :
    f.block big idw .mass = [] ↔ f.block big' idw' .mass = [] := by
  have key : ∀ (bg : Bool) (iw : Nat), f.block bg iw .mass = [] ↔
      ∀ j < 6, f.header.massarr.getD j 0 ≠ 0 ∨ f.species.getD j [] = [] := by
    intro bg iw
    unfold Snap.block
    rw [List.flatMap_eq_nil_iff]
    constructor
    · intro h j hj
      have := h j (List.mem_range.mpr hj)
      by_cases h0 : f.header.massarr.getD j 0 ≠ 0
      · exact Or.inl h0
      · right
        rw [if_neg (by simpa using h0), List.flatMap_eq_nil_iff] at this
        rw [List.eq_nil_iff_forall_not_mem]
        intro p hp
        have h1 := this p hp
        have h2 := congrArg List.length h1
        simp [Part.stored, length_enc, bytesPer] at h2
    · intro h j hj
      rcases h j (List.mem_range.mp hj) with h0 | h0
      · rw [if_pos ⟨rfl, h0⟩]
      · rw [h0]; simp
  rw [key, key]

theorem readRest_bytes (fs : String → Option (List Nat)) (base : String) (big : Bool) (idw : Nat) (b : Block)
    (ptype : Nat) (hp : ptype < 6) (massarr : List Nat) (hd : hasData b massarr ptype = true) (files : List Snap)
    (hv : ∀ f ∈ files, f.Valid idw) (hm : ∀ f ∈ files, f.header.massarr = massarr)
    (hb : b = .mass → ∀ f ∈ files, f.block big idw .mass ≠ []) (i : Nat)
    (hfs : ∀ k (hk : k < files.length), fs (base ++ "." ++ toString (i + k)) = some (files[k].bytes big idw))
    (done : List (List Nat)) (rest : Nat) (hrest : (allOf files ptype).length ≤ rest) :
    readRest fs base b massarr ptype false big (List.range' i files.length)
      ⟨done.length, bytesPer idw b, done.map some ++ List.replicate rest none⟩ =
    .ok ⟨done.length + (allOf files ptype).length, bytesPer idw b,
      (done ++ (allOf files ptype).map fun p => store b (p.stored b)).map some ++
        List.replicate (rest - (allOf files ptype).length) none⟩ := by
  induction files generalizing i done rest with
  | nil => simp [readRest, allOf]
  | cons f files ih =>
    have h0 := hfs 0 (by simp)
    simp only [Nat.add_zero, List.getElem_cons_zero] at h0
    have hvf := hv f List.mem_cons_self
    have hmf := hm f List.mem_cons_self
    rw [List.length_cons, List.range'_succ, readRest, openFile, h0]
    simp only [Except.bind, header_bytes hvf big]
    have hall : allOf (f :: files) ptype = f.species.getD ptype [] ++ allOf files ptype := by simp [allOf]
    have hone := readOne_bytes hvf big b ptype hp (fun h => hb h f List.mem_cons_self) (by rw [hmf]; exact hd) false
      ⟨done.length, bytesPer idw b, done.map some ++ List.replicate rest none⟩ (by simp)
    rw [hmf] at hone
    have hlen : (f.species.getD ptype []).length ≤ rest := by
      rw [hall, List.length_append] at hrest; omega
    have hass := assignSlice_prefix done ((f.species.getD ptype []).map fun p => store b (p.stored b)) rest
      (by rw [List.length_map]; exact hlen)
    rw [List.length_map] at hass
    rw [hone, hass]
    simp only [Except.map]
    have hih := ih (fun g hg => hv g (List.mem_cons_of_mem _ hg)) (fun g hg => hm g (List.mem_cons_of_mem _ hg))
      (fun h g hg => hb h g (List.mem_cons_of_mem _ hg)) (i + 1)
      (by
        intro k hk
        have := hfs (k + 1) (by simpa using hk)
        rw [show i + (k + 1) = i + 1 + k by omega] at this
        simpa using this)
      (done ++ (f.species.getD ptype []).map fun p => store b (p.stored b))
      (rest - (f.species.getD ptype []).length)
      (by rw [hall, List.length_append] at hrest; omega)
    rw [List.length_append, List.length_map] at hih
    rw [hih, hall]
    simp only [List.length_append, List.map_append, List.append_assoc, Nat.sub_sub, Nat.add_assoc]

/-- The type of numbers of IDs is found out from the first file. -/
theorem first_width {f : Snap} {idw : Nat} (hidw : idw = 4 ∨ idw = 8) (hv : f.Valid idw) (big : Bool) (b : Block)
    (hne : b = .id → idw = 4 → f.block big idw .id ≠ []) :
    (if (true = true) ∧ b = .id ∧ (f.block big idw b).length =
      b.width * speciesOffset b f.header.massarr f.header.npart 6 * 2 then 8 else b.width) = bytesPer idw b := by
  have htot : (f.block big idw b).length =
      speciesOffset b f.header.massarr f.header.npart 6 * (bytesPer idw b * b.comps) := length_parts hv big b 6
  by_cases hb : b = .id
  · subst hb
    rcases hidw with rfl | rfl
    · have h0 := hne rfl rfl
      rw [if_neg]
      · rfl
      · rintro ⟨-, -, h⟩
        rw [htot] at h
        simp only [bytesPer, Block.comps, Block.width] at h
        apply h0
        rw [← List.length_eq_zero_iff, htot]
        have : speciesOffset .id f.header.massarr f.header.npart 6 = 0 := by omega
        rw [this]; simp
    · rw [if_pos]
      · rfl
      · refine ⟨rfl, rfl, ?_⟩
        rw [htot]
        simp only [bytesPer, Block.comps, Block.width]
        omega
  · rw [if_neg (by simp [hb])]
    cases b <;> first | rfl | exact absurd rfl hb

theorem length_allOf (files : List Snap) (j : Nat) :
    (allOf files j).length = (files.map fun g => (g.species.getD j []).length).sum := by
  simp [allOf, List.length_flatMap]

/-- What `readBlock` returns for a snapshot in several files, as stored. -/
theorem readBlock_files (fs : String → Option (List Nat)) (base : String) (big : Bool) (idw : Nat)
    (hidw : idw = 4 ∨ idw = 8) (files : List Snap) (hs : IsSnapshot files idw) (hne : files ≠ [])
    (hbase : fs base = none)
    (hfs : ∀ k (hk : k < files.length), fs (base ++ "." ++ toString k) = some (files[k].bytes big idw))
    (b : Block) (ptype : Nat) (hp : ptype < 6)
    (hid : b = .id → idw = 4 → ∀ f, files.head? = some f → f.block big idw .id ≠ [])
    (massarr : List Nat) (hm : ∀ f ∈ files, f.header.massarr = massarr)
    (hmass : b = .mass → massarr.getD ptype 0 = 0 → ∀ f ∈ files, f.block big idw .mass ≠ []) :
    readBlock fs base b ptype =
      .ok ((allOf files ptype).map fun p => some (store b (p.value massarr ptype b))) := by
  obtain ⟨f, files, rfl⟩ := List.exists_cons_of_ne_nil hne
  have hvf := hs.valid f List.mem_cons_self
  have hmf := hm f List.mem_cons_self
  have h0 := hfs 0 (by simp)
  simp only [List.getElem_cons_zero] at h0
  have hall : allOf (f :: files) ptype = f.species.getD ptype [] ++ allOf files ptype := by simp [allOf]
  have hcount : f.header.nall.getD ptype 0 = (allOf (f :: files) ptype).length := by
    rw [hs.nall f List.mem_cons_self, length_allOf]
  have hname : base ++ "." ++ toString 0 = base ++ ".0" := by
    rw [String.append_assoc]; rfl
  rw [hname] at h0
  unfold readBlock
  simp only [hbase, Option.isSome_none, Bool.false_eq_true, if_false, openFirst, openFile, h0, Except.bind, header_bytes hvf big]
  rw [hmf, hcount]
  by_cases htab : b = .mass ∧ massarr.getD ptype 0 ≠ 0
  · rw [if_pos htab]
    congr 1
    symm
    rw [List.eq_replicate_iff]
    refine ⟨by simp, ?_⟩
    intro x hx
    obtain ⟨p, -, rfl⟩ := List.mem_map.mp hx
    unfold Part.value
    rw [if_pos htab, htab.1]
    simp [store]
  · have hd : hasData b massarr ptype = true := (hasData_iff _ _ _).mpr htab
    have hb : b = .mass → ∀ g ∈ f :: files, g.block big idw .mass ≠ [] := by
      intro h
      refine hmass h ?_
      by_contra h'
      exact htab ⟨h, h'⟩
    rw [if_neg htab, hs.filenum f List.mem_cons_self, List.length_cons, if_neg (by omega)]
    have hone := readOne_bytes hvf big b ptype hp (fun h => hb h f List.mem_cons_self) (by rw [hmf]; exact hd) true
      ⟨0, b.width, List.replicate (allOf (f :: files) ptype).length none⟩
      (first_width hidw hvf big b fun h h' => hid h h' f rfl)
    rw [hmf] at hone
    have hass := assignSlice_prefix [] ((f.species.getD ptype []).map fun p => store b (p.stored b))
      (allOf (f :: files) ptype).length (by rw [List.length_map, hall, List.length_append]; omega)
    simp only [List.map_nil, List.nil_append, List.length_nil, List.length_map] at hass
    rw [hone, hass]
    simp only [Except.map, Nat.add_sub_cancel]
    have hrest := readRest_bytes fs base big idw b ptype hp massarr hd files
      (fun g hg => hs.valid g (List.mem_cons_of_mem _ hg)) (fun g hg => hm g (List.mem_cons_of_mem _ hg))
      (fun h g hg => hb h g (List.mem_cons_of_mem _ hg)) 1
      (by
        intro k hk
        have := hfs (k + 1) (by simpa using hk)
        rw [Nat.add_comm 1 k]
        simpa using this)
      ((f.species.getD ptype []).map fun p => store b (p.stored b)) (allOf files ptype).length (le_refl _)
    rw [List.length_map] at hrest
    have hl : (allOf (f :: files) ptype).length - (f.species.getD ptype []).length = (allOf files ptype).length := by
      rw [hall, List.length_append]; omega
    rw [hl, Nat.zero_add, hrest, hall]
    simp only [Nat.sub_self, List.replicate_zero, List.append_nil, List.map_append, List.map_map]
    congr 1
    congr 1 <;>
    · apply List.map_congr_left
      intro p _
      simp only [Function.comp, stored_value hd]

end Verif.Gadget
