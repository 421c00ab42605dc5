import Verif.Gadget.BlocksProps
import Mathlib.Tactic.IntervalCases

/-!
# Reading any block of a snapshot with one of the known layouts (C123)
-/

namespace Verif.Gadget

/-! ## Specification -/

/-- The orders of blocks which the comments of readsnap.py mention, with the options by which a user chooses them.
Snapshots may end early; `noMasses`: there is no mass block, all masses are in the header. -/
inductive Layout
  | gadget (noMasses : Bool) | arepo (noMasses : Bool) | arepoExtended (noMasses : Bool) | hydrogen (noMasses : Bool)
  | accelerations

/-- The mass block, if there is one. -/
def massBlock (noMasses : Bool) : List BlockName := if noMasses then [] else [.mass]

/-- The order of the blocks after the header. -/
def Layout.order : Layout → List BlockName
  | .gadget m => [.pos, .vel, .id] ++ massBlock m ++ [.u, .rho, .ne, .nh, .hsml, .sfr, .age, .z, .bhma, .bhmd]
  | .arepo m => [.pos, .vel, .id] ++ massBlock m ++ [.u, .rho, .vol, .ne, .nh, .hsml, .sfr, .age, .z, .bhma, .bhmd]
  | .arepoExtended m => [.pos, .vel, .id] ++ massBlock m ++
      [.u, .rho, .vol, .cmce, .area, .nfac, .ne, .nh, .hsml, .sfr, .age, .z, .bhma, .bhmd]
  | .hydrogen m => [.pos, .vel, .id] ++ massBlock m ++ [.u, .rho, .ne, .nh, .hsml, .sfr, .mhi, .temp]
  | .accelerations => [.pos, .vel, .id, .acce]

/-- `arepo` and `no_masses`. -/
def Layout.options : Layout → List Nat → Opts
  | .gadget m, n => ⟨0, m, n⟩
  | .arepo m, n => ⟨1, m, n⟩
  | .arepoExtended m, n => ⟨2, m, n⟩
  | .hydrogen m, n => ⟨0, m, n⟩
  | .accelerations, n => ⟨0, false, n⟩

/-- Types of particles which a block is about: gas is 0, stars are 4, black holes are 5. -/
def about (massarr : List Nat) : BlockName → Nat → Prop
  | .pos, _ => True
  | .vel, _ => True
  | .id, _ => True
  | .acce, _ => True
  | .mass, j => massarr.getD j 0 = 0
  | .age, j => j = 4
  | .z, j => j = 0 ∨ j = 4
  | .bhma, j => j = 5
  | .bhmd, j => j = 5
  | _, j => j = 0

/-- Names of the blocks in Gadget's documentation: four characters, filled up with blanks. -/
def blockLabel : BlockName → String
  | .pos => "POS "
  | .vel => "VEL "
  | .id => "ID  "
  | .acce => "ACCE"
  | .mass => "MASS"
  | .u => "U   "
  | .rho => "RHO "
  | .vol => "VOL "
  | .cmce => "CMCE"
  | .area => "AREA"
  | .nfac => "NFAC"
  | .ne => "NE  "
  | .nh => "NH  "
  | .hsml => "HSML"
  | .sfr => "SFR "
  | .mhi => "MHI "
  | .temp => "TEMP"
  | .age => "AGE "
  | .z => "Z   "
  | .bhma => "BHMA"
  | .bhmd => "BHMD"

/-- Numbers per particle. -/
def numbers (b : BlockName) : Nat := if b = .pos ∨ b = .vel ∨ b = .acce ∨ b = .cmce then 3 else 1

/-- Bytes per number. -/
def sizes (idw : Nat) (b : BlockName) : Nat := if b = .id then idw else 8

/-- What an author writes into a file: a header, and the numbers of each particle for each block. -/
structure Written where
  header : Header
  pad : List Nat
  content : BlockName → Nat → List (List Nat)

/-- The file with the given blocks. -/
def Written.file (w : Written) (idw : Nat) (blocks : List BlockName) : GFile :=
  ⟨w.header, w.pad, blocks.map fun b => ⟨sizes idw b, w.content b⟩⟩

open Classical in
/-- The contents of a block fit to the header. -/
structure Written.Good (w : Written) (idw : Nat) (b : BlockName) : Prop where
  count : ∀ j, (w.content b j).length = if about w.header.massarr b j then w.header.npart.getD j 0 else 0
  shape : ∀ j, ∀ row ∈ w.content b j, row.length = numbers b ∧ ∀ x ∈ row, x < 256 ^ sizes idw b

/-- The numbers of the particles of type `j`: masses may be in the header. -/
def Written.value (w : Written) (b : BlockName) (j : Nat) : List (List Nat) :=
  if b = .mass ∧ w.header.massarr.getD j 0 ≠ 0 then List.replicate (w.header.npart.getD j 0) [w.header.massarr.getD j 0]
  else w.content b j

open Classical in
/-- Types in the result: the one asked for, or (`-1`) all which the block is about; for masses all types. -/
noncomputable def typesRead (massarr : List Nat) (b : BlockName) (parttype : Int) : List Nat :=
  if parttype = -1 then (List.range 6).filter fun j => decide (b = .mass ∨ about massarr b j) else [parttype.toNat]

/-! ## Proofs -/

theorem dataFor_iff (massarr : List Nat) (b : BlockName) (j : Nat) : dataFor massarr b j = true ↔ about massarr b j := by
  cases b <;> simp [dataFor, about]

theorem comps_numbers (b : BlockName) : b.comps = numbers b := by
  cases b <;> rfl

theorem str_label (b : BlockName) : blockLabel b = b.str := by
  cases b <;> rfl

theorem parse_str (b : BlockName) : parseBlock b.str = some b := by
  cases b <;> decide

/-- Every block of a layout is at the place where it is looked for. -/
theorem layout_num (L : Layout) (nall : List Nat) (k : Nat) (b : BlockName) (h : L.order[k]? = some b) :
    blockNum (L.options nall) b = k + 2 := by
  have hk : k < L.order.length := (List.getElem?_eq_some_iff.1 h).1
  have key : ∀ (l : List BlockName) (f : BlockName → Nat), l.map f = List.range' 2 l.length → ∀ k b, l[k]? = some b →
      f b = k + 2 := by
    intro l f hf k b hb
    have h1 : (l.map f)[k]? = some (f b) := by rw [List.getElem?_map, hb]; rfl
    rw [hf] at h1
    obtain ⟨h2, h3⟩ := List.getElem?_eq_some_iff.1 h1
    rw [List.getElem_range'] at h3
    omega
  refine key L.order (blockNum (L.options nall)) ?_ k b h
  cases L with
  | gadget m => cases m <;> rfl
  | arepo m => cases m <;> rfl
  | arepoExtended m => cases m <;> rfl
  | hydrogen m => cases m <;> rfl
  | accelerations => rfl

theorem partType_ok (t : Int) (h : t = -1 ∨ 0 ≤ t ∧ t ≤ 5) : partType t = .ok (if t = -1 then none else some t.toNat) := by
  unfold partType
  by_cases ht : t = -1
  · rw [if_pos ht, if_pos ht]
  · rw [if_neg ht, if_neg ht, if_pos (h.resolve_left ht)]

theorem store_small (b : BlockName) (rows : List (List Nat)) (h : b = .id → ∀ row ∈ rows, ∀ x ∈ row, x < 2 ^ 32) :
    rows.map (storeRow b) = rows := by
  conv_rhs => rw [← List.map_id rows]
  apply List.map_congr_left
  intro row hr
  unfold storeRow
  by_cases hb : b = .id
  · rw [if_pos hb]
    conv_rhs => rw [id, ← List.map_id row]
    apply List.map_congr_left
    intro x hx
    exact Nat.mod_eq_of_lt (h hb row hr x hx)
  · rw [if_neg hb]; rfl

theorem GOnDisk.first {fs : String → Option (List Nat)} {base : String} {big : Bool} {files : List GFile}
    (h : GOnDisk fs base big files) : ∃ f rest, files = f :: rest ∧
      fs (if (fs base).isSome then base else base ++ ".0") = some (f.bytes big) ∧
      ((fs base).isSome → rest = []) := by
  cases h with
  | single f h => exact ⟨f, [], rfl, by rw [h]; simpa using h, fun _ => rfl⟩
  | several files hne hbase h =>
    obtain ⟨f, rest, rfl⟩ := List.exists_cons_of_ne_nil hne
    refine ⟨f, rest, rfl, ?_, ?_⟩
    · have h0 := h 0 (by simp)
      have hname : base ++ "." ++ toString 0 = base ++ ".0" := by rw [String.append_assoc]; rfl
      rw [hname] at h0
      rw [hbase]
      simpa using h0
    · rw [hbase]; simp

theorem flatMap_if {α : Type} (l : List Nat) (p : Nat → Bool) (f : Nat → List α) :
    (l.flatMap fun j => if p j then f j else []) = (l.filter p).flatMap f := by
  induction l with
  | nil => rfl
  | cons a l ih =>
    rw [List.flatMap_cons, ih]
    by_cases h : p a = true
    · rw [if_pos h, List.filter_cons_of_pos h, List.flatMap_cons]
    · rw [if_neg h, List.filter_cons_of_neg h, List.nil_append]

theorem filter_range_eq (t : Nat) (ht : t < 6) : (List.range 6).filter (fun j => decide (j = t)) = [t] := by
  interval_cases t <;> rfl

open Classical in
/-- C123. Any block of a snapshot with one of the known layouts, in one file or several, in either byte order, is read
completely: all particles of a type, or type after type, and for each type file after file.  The total numbers of particles are
in the header or given by hand.  IDs have to be below 2³², and the first file must not be empty if IDs have four bytes. -/
theorem C123_read_partial (fs : String → Option (List Nat)) (base : String) (big : Bool) (idw : Nat)
    (hidw : idw = 4 ∨ idw = 8) (L : Layout) (n : Nat) (nall massarr : List Nat) (ws : List Written)
    (hd : GOnDisk fs base big (ws.map fun w => w.file idw (L.order.take n)))
    (hs : GSnapshot (ws.map fun w => w.file idw (L.order.take n)) nall massarr)
    (b : BlockName) (hb : b ∈ L.order.take n) (hgood : ∀ w ∈ ws, w.Good idw b)
    (hid : b = .id → (∀ w ∈ ws, ∀ j, ∀ row ∈ w.content .id j, ∀ x ∈ row, x < 2 ^ 32) ∧
      (idw = 4 → ∃ w, ws.head? = some w ∧ ∃ j < 6, w.content .id j ≠ []))
    (t : Int) (ht : t = -1 ∨ 0 ≤ t ∧ t ≤ 5 ∧ (b = .mass ∨ about massarr b t.toNat)) :
    readAny fs base (blockLabel b) t (L.options nall) =
      .ok ((typesRead massarr b t).flatMap fun j => (ws.flatMap fun w => w.value b j).map some) := by
  have hopt : (L.options nall).nall = nall := by cases L <;> rfl
  obtain ⟨f, rest, hfiles, hopen, hsingle⟩ := hd.first
  obtain ⟨w, ws', rfl⟩ : ∃ w ws', ws = w :: ws' := by
    cases ws with
    | nil => simp at hfiles
    | cons w ws' => exact ⟨w, ws', rfl⟩
  have hf : f = w.file idw (L.order.take n) := by
    rw [List.map_cons, List.cons.injEq] at hfiles
    exact hfiles.1.symm
  have hmem : f ∈ (w :: ws').map fun w => w.file idw (L.order.take n) := by rw [hfiles]; exact List.mem_cons_self
  have hmw : ∀ v ∈ w :: ws', v.header.massarr = massarr := fun v hv => hs.massarr _ (List.mem_map_of_mem hv)
  unfold readAny
  rw [partType_ok t (ht.imp id fun h => ⟨h.1, h.2.1⟩)]
  simp only [Except.bind, openFirst, openFile, hopen, gheader_bytes (hs.valid f hmem) big, str_label, parse_str, hopt]
  have hfm : f.header.massarr = massarr := hs.massarr f hmem
  rw [hfm]
  -- the number of particles which are expected of a type
  have hcount : ∀ j < 6, (if (fs base).isSome then f.header.npart else
      if nall = [0, 0, 0, 0, 0, 0] then f.header.nall else nall).getD j 0 =
      ((w :: ws').map fun v => v.header.npart.getD j 0).sum := by
    intro j hj
    have hsum : ((w :: ws').map fun v => v.header.npart.getD j 0).sum =
        (((w :: ws').map fun w => w.file idw (L.order.take n)).map fun g => g.header.npart.getD j 0).sum := by
      rw [List.map_map]; rfl
    by_cases h1 : (fs base).isSome = true
    · rw [if_pos h1, hsum, hfiles, hsingle h1]
      simp
    · rw [if_neg h1, hs.nall f hmem j hj, hsum]
  by_cases htab : t ≠ -1 ∧ b = .mass ∧ massarr.getD t.toNat 0 ≠ 0
  · -- masses in the header
    obtain ⟨h1, h2, h3⟩ := htab
    have hpt : t.toNat < 6 := by
      rcases ht with ht | ht
      · exact absurd ht h1
      · omega
    rw [if_neg h1]
    simp only
    rw [if_pos ⟨h2, h3⟩, hcount _ hpt]
    unfold typesRead
    rw [if_neg h1, List.flatMap_cons, List.flatMap_nil, List.append_nil]
    congr 1
    have : ∀ l : List Written, (∀ v ∈ l, v.header.massarr = massarr) →
        (l.flatMap fun v => v.value b t.toNat).map some =
        List.replicate ((l.map fun v => v.header.npart.getD t.toNat 0).sum) (some [massarr.getD t.toNat 0]) := by
      intro l hl
      induction l with
      | nil => rfl
      | cons v l ih =>
        rw [List.flatMap_cons, List.map_append, ih fun v hv => hl v (List.mem_cons_of_mem _ hv), List.map_cons, List.sum_cons,
          List.replicate_add]
        congr 1
        unfold Written.value
        rw [hl v List.mem_cons_self, if_pos ⟨h2, h3⟩, List.map_replicate]
    rw [this _ hmw]
  · -- data of the block
    have hq : ∀ u, (if t = -1 then none else some t.toNat) = some u → u < 6 ∧ dataFor massarr b u = true := by
      intro u hu
      by_cases h1 : t = -1
      · rw [if_pos h1] at hu; cases hu
      · rw [if_neg h1] at hu
        obtain rfl := Option.some.inj hu
        rcases ht with ht | ht
        · exact absurd ht h1
        · refine ⟨by omega, (dataFor_iff _ _ _).2 ?_⟩
          rcases ht.2.2 with hm | hm
          · subst hm
            show massarr.getD t.toNat 0 = 0
            by_contra h3
            exact htab ⟨h1, rfl, h3⟩
          · exact hm
    obtain ⟨k, hk⟩ := List.mem_iff_getElem?.1 hb
    have hk' : L.order[k]? = some b := by
      rw [List.getElem?_take] at hk
      split at hk
      · exact hk
      · cases hk
    have hnum := layout_num L nall k b hk'
    have hrows : ∀ v : Written, (v.file idw (L.order.take n)).blocks[blockNum (L.options nall) b - 2]? =
        some ⟨sizes idw b, v.content b⟩ := by
      intro v
      rw [hnum, Nat.add_sub_cancel]
      show ((L.order.take n).map _)[k]? = _
      rw [List.getElem?_map, hk]
      rfl
    set rows : GFile → Nat → List (List Nat) := fun g =>
      ((g.blocks[blockNum (L.options nall) b - 2]?).map GBlock.rows).getD fun _ => [] with hrowsdef
    have hrw : ∀ v : Written, rows (v.file idw (L.order.take n)) = v.content b := by
      intro v
      simp only [hrowsdef, hrows]
      rfl
    have hold : ∀ g ∈ (w :: ws').map (fun w => w.file idw (L.order.take n)),
        Holds g (blockNum (L.options nall) b) b.comps (sizes idw b) (dataFor massarr b) (rows g) := by
      intro g hg
      obtain ⟨v, hv, rfl⟩ := List.mem_map.1 hg
      have hgv := hgood v hv
      refine ⟨by omega, by rw [hrw]; exact hrows v, ?_, ?_⟩
      · intro j
        rw [hrw, hgv.count, hmw v hv]
        simp only [dataFor_iff]
        rfl
      · intro j row hr
        rw [hrw] at hr
        rw [comps_numbers]
        exact hgv.shape j row hr
    have hw : (if b = .id ∧ (GBlock.bytes big ⟨sizes idw b, rows f⟩).length =
        b.width * offsetOf (dataFor massarr b) f.header.npart 6 * 2 then 8 else b.width) = sizes idw b := by
      have hlen : (GBlock.bytes big ⟨sizes idw b, rows f⟩).length =
        offsetOf (dataFor massarr b) f.header.npart 6 * (sizes idw b * b.comps) := length_gparts big (hold f hmem) 6
      by_cases hbid : b = .id
      · subst hbid
        rcases hidw with rfl | rfl
        · rw [if_neg]
          · rfl
          · rintro ⟨-, h⟩
            rw [hlen] at h
            simp only [sizes, if_true, BlockName.comps, BlockName.width] at h
            obtain ⟨v, hv, j, hj, hne⟩ := (hid rfl).2 rfl
            simp only [List.head?_cons, Option.some.injEq] at hv
            subst hv
            have h0 : offsetOf (dataFor massarr .id) f.header.npart 6 = 0 := by omega
            have h1 := (hold f hmem).count j
            rw [show dataFor massarr .id j = true from rfl, if_pos rfl] at h1
            unfold offsetOf at h0
            rw [List.sum_eq_zero_iff] at h0
            have h2 := h0 (f.header.npart.getD j 0) (by
              rw [List.mem_map]
              exact ⟨j, List.mem_range.2 hj, by simp [dataFor]⟩)
            rw [h2, hf, hrw] at h1
            exact hne (List.length_eq_zero_iff.1 h1)
        · rw [if_pos]
          · rfl
          · refine ⟨rfl, ?_⟩
            rw [hlen]
            simp only [sizes, if_true, BlockName.comps, BlockName.width]
            omega
      · rw [if_neg (fun h => hbid h.1)]
        unfold sizes
        rw [if_neg hbid]
        cases b <;> first | rfl | exact absurd rfl hbid
    have hgo := go_files fs base (L.options nall) big _ hd massarr (by rw [hopt]; exact hs) b
      (if t = -1 then none else some t.toNat) hq (sizes idw b) rows hold f rest hfiles hw
    rw [hopt] at hgo
    have hres : ((List.range 6).flatMap fun j => (((w :: ws').map fun w => w.file idw (L.order.take n)).flatMap fun f =>
        share ⟨b, if t = -1 then none else some t.toNat, massarr, blockNum (L.options nall) b⟩ f.header.npart (rows f) j).map some) =
        (typesRead massarr b t).flatMap fun j => ((w :: ws').flatMap fun v => v.value b j).map some := by
      have h1 : ∀ j, (((w :: ws').map fun w => w.file idw (L.order.take n)).flatMap fun f =>
          share ⟨b, if t = -1 then none else some t.toNat, massarr, blockNum (L.options nall) b⟩ f.header.npart (rows f) j).map some =
          if actualFor massarr b (if t = -1 then none else some t.toNat) j then
            ((w :: ws').flatMap fun v => v.value b j).map some else [] := by
        intro j
        rw [List.flatMap_map]
        by_cases ha : actualFor massarr b (if t = -1 then none else some t.toNat) j = true
        · rw [if_pos ha]
          congr 1
          apply List.flatMap_congr
          intro v hv
          unfold share Written.value
          simp only [ha, if_true, hrw, hmw v hv]
          rw [store_small b _ (fun hb row hr x hx => by subst hb; exact (hid rfl).1 v hv j row hr x hx)]
          rfl
        · rw [if_neg ha]
          have : ∀ v : Written, share ⟨b, if t = -1 then none else some t.toNat, massarr, blockNum (L.options nall) b⟩
              (v.file idw (L.order.take n)).header.npart (rows (v.file idw (L.order.take n))) j = [] := by
            intro v
            unfold share
            rw [if_neg ha]
          simp [this]
      simp only [h1]
      rw [flatMap_if]
      congr 1
      unfold typesRead
      by_cases ht1 : t = -1
      · rw [if_pos ht1, if_pos ht1]
        apply List.filter_congr
        intro j _
        simp only [actualFor, dataFor_iff]
      · rw [if_neg ht1, if_neg ht1]
        have := (hq t.toNat (by rw [if_neg ht1])).1
        exact filter_range_eq t.toNat this
    rw [hres] at hgo
    by_cases ht1 : t = -1
    · rw [if_pos ht1] at hgo ⊢
      exact hgo
    · rw [if_neg ht1] at hgo ⊢
      simp only
      have hd' := (hq t.toNat (by rw [if_neg ht1])).2
      rw [if_neg (fun h => htab ⟨ht1, h⟩), if_neg (by rw [hd']; simp)]
      exact hgo

/-! ## The four blocks of `readgadget.py` -/

/-- The four blocks among all. -/
def Block.name : Block → BlockName
  | .pos => .pos
  | .vel => .vel
  | .id => .id
  | .mass => .mass

theorem storeRow_name (b : Block) : storeRow b.name = store b := by
  cases b <;> rfl

theorem dataFor_name (massarr : List Nat) (b : Block) : dataFor massarr b.name = hasData b massarr := by
  funext j
  cases b <;> rfl

theorem foldlM_skip {s : AllLoop} (q : Request) (npart : List Nat) (cur : List (List Nat)) (t : Nat) (hq : q.ptype = some t)
    (l : List Nat) (hl : ∀ j ∈ l, j ≠ t) : l.foldlM (fillType q npart cur) s = .ok s := by
  induction l with
  | nil => rfl
  | cons j l ih =>
    rw [List.foldlM_cons]
    have : fillType q npart cur s j = .ok s := by
      unfold fillType
      rw [if_neg]
      rw [hq]
      simpa [actualFor] using hl j List.mem_cons_self
    rw [this]
    exact ih fun k hk => hl k (List.mem_cons_of_mem _ hk)

/-- Only type `t` is filled. -/
theorem fill_one {s : AllLoop} (q : Request) (npart : List Nat) (cur : List (List Nat)) (t : Nat) (ht : t < 6)
    (hq : q.ptype = some t) (hm : ¬(q.block = .mass ∧ q.massarr.getD t 0 ≠ 0)) :
    (List.range 6).foldlM (fillType q npart cur) s = (assignSlice s.data (s.next t) (npart.getD t 0) cur).map fun d =>
      { s with data := d, next := Function.update s.next t (s.next t + npart.getD t 0) } := by
  rw [range_split t 6 ht, List.foldlM_append, foldlM_skip q npart cur t hq _ (fun j hj => by
    rw [List.mem_range] at hj; omega)]
  show (List.foldlM _ s (t :: _) : Except ReadErr AllLoop) = _
  rw [List.foldlM_cons]
  have : fillType q npart cur s t = (assignSlice s.data (s.next t) (npart.getD t 0) cur).map fun d =>
      { s with data := d, next := Function.update s.next t (s.next t + npart.getD t 0) } := by
    unfold fillType
    rw [if_pos (by rw [hq]; simp [actualFor])]
    unfold fillData
    rw [if_neg hm, hq]
  rw [this]
  cases assignSlice s.data (s.next t) (npart.getD t 0) cur with
  | error e => rfl
  | ok d =>
    show List.foldlM _ _ _ = _
    rw [foldlM_skip q npart cur t hq _ (fun j hj => by rw [List.mem_range'_1] at hj; omega)]
    rfl

/-- The states of the two loops which correspond to each other. -/
def Same (t : Nat) (a : Loop) (s : AllLoop) : Prop := s.next t = a.next ∧ s.width = a.width ∧ s.data = a.data

/-- The two loops end in corresponding states or with the same exception. -/
def SameResult (t : Nat) (a : Except ReadErr Loop) (s : Except ReadErr AllLoop) : Prop :=
  match a, s with
  | .ok a, .ok s => Same t a s
  | .error e, .error e' => e = e'
  | _, _ => False

theorem passFile_one (b : Block) (massarr : List Nat) (t : Nat) (ht : t < 6) (hd : hasData b massarr t = true) (o : Opts)
    (fmt2 swap first : Bool) (npart file : List Nat) (a : Loop) (s : AllLoop) (hs : Same t a s) :
    SameResult t (readOne b massarr t fmt2 swap first npart file a)
      (passFile ⟨b.name, some t, massarr, blockNum o b.name⟩ fmt2 swap first npart file s) := by
  obtain ⟨h1, h2, h3⟩ := hs
  have hnum : blockNum o b.name = b.num := by cases b <;> rfl
  have hoff : offsetOf (dataFor massarr b.name) npart = speciesOffset b massarr npart := by
    funext j
    unfold offsetOf speciesOffset
    rw [dataFor_name]
  have hid : b.name = .id ↔ b = .id := by cases b <;> simp [Block.name]
  have hcomps : b.name.comps = b.comps := by cases b <;> rfl
  unfold readOne passFile
  simp only [hnum, hoff, h2, hid, hcomps]
  cases findBlock file fmt2 swap b.num with
  | error e => exact rfl
  | ok os =>
    simp only [Except.bind]
    split <;>
    · split
      · exact rfl
      · rw [fill_one _ npart _ t ht rfl (by
          simp only
          have := (hasData_iff b massarr t).1 hd
          rwa [show b.name = .mass ↔ b = .mass by cases b <;> simp [Block.name]])]
        simp only [h1, h3, storeRow_name]
        generalize assignSlice a.data a.next (npart.getD t 0) _ = r
        cases r with
        | error e => exact rfl
        | ok d => exact ⟨by simp [Function.update_self], rfl, rfl⟩

theorem passRest_one (fs : String → Option (List Nat)) (base : String) (b : Block) (massarr : List Nat) (t : Nat) (ht : t < 6)
    (hd : hasData b massarr t = true) (o : Opts) (fmt2 swap : Bool) (is : List Nat) (a : Loop) (s : AllLoop) (hs : Same t a s) :
    SameResult t (readRest fs base b massarr t fmt2 swap is a)
      (passRest fs base ⟨b.name, some t, massarr, blockNum o b.name⟩ fmt2 swap is s) := by
  induction is generalizing a s with
  | nil => exact hs
  | cons i is ih =>
    rw [readRest, passRest]
    cases openFile fs (base ++ "." ++ toString i) with
    | error e => exact rfl
    | ok file =>
      simp only [Except.bind]
      cases snapshotHeader file with
      | error e => exact rfl
      | ok h =>
        simp only
        have := passFile_one b massarr t ht hd o fmt2 swap false h.2.2.npart file a s hs
        generalize readOne b massarr t fmt2 swap false h.2.2.npart file a = x at this ⊢
        generalize passFile _ fmt2 swap false h.2.2.npart file s = y at this ⊢
        cases x <;> cases y
        · exact this
        · exact this.elim
        · exact this.elim
        · exact ih _ _ this

/-- For a type of particles and the blocks which `readgadget.py` reads, the model of this file is that of C57. -/
theorem readAny_readBlock (fs : String → Option (List Nat)) (base : String) (b : Block) (t : Nat) (ht : t < 6) :
    readAny fs base b.name.str t ⟨0, false, [0, 0, 0, 0, 0, 0]⟩ = readBlock fs base b t := by
  have hmass : b.name = .mass ↔ b = .mass := by cases b <;> simp [Block.name]
  unfold readAny readBlock
  rw [partType_ok t (.inr ⟨by omega, by omega⟩), if_neg (by omega), Int.toNat_natCast]
  simp only [Except.bind, parse_str, if_true, hmass]
  cases openFirst fs (if (fs base).isSome = true then base else base ++ ".0") with
  | error e => rfl
  | ok file =>
    simp only
    cases snapshotHeader file with
    | error e => rfl
    | ok h =>
      obtain ⟨fmt2, swap, hd⟩ := h
      simp only
      have hcount : (if (fs base).isSome = true then hd.npart else hd.nall).getD t 0 =
          if (fs base).isSome = true then hd.npart.getD t 0 else hd.nall.getD t 0 := by split <;> rfl
      by_cases hm : b = .mass ∧ hd.massarr.getD t 0 ≠ 0
      · rw [if_pos hm, if_pos hm, hcount]
      · rw [if_neg hm, if_neg hm]
        have hdat : hasData b hd.massarr t = true := (hasData_iff _ _ _).2 hm
        rw [dataFor_name, hdat, if_neg (by simp)]
        unfold readAny.go
        have hact : ∀ j, actualFor hd.massarr b.name (some t) j = decide (j = t) := fun j => rfl
        have h6 : offsetOf (actualFor hd.massarr b.name (some t)) (if (fs base).isSome = true then hd.npart else hd.nall) 6 =
            (if (fs base).isSome = true then hd.npart else hd.nall).getD t 0 := by
          unfold offsetOf
          simp only [hact]
          interval_cases t <;> simp [List.range_succ]
        have h0 : offsetOf (actualFor hd.massarr b.name (some t)) (if (fs base).isSome = true then hd.npart else hd.nall) t = 0 := by
          unfold offsetOf
          simp only [hact]
          rw [List.sum_eq_zero_iff]
          intro x hx
          obtain ⟨j, hj, rfl⟩ := List.mem_map.1 hx
          rw [List.mem_range] at hj
          rw [if_neg (by simp; omega)]
        simp only [h6, hcount]
        have hwid : b.name.width = b.width := by cases b <;> rfl
        split
        · rfl
        · have hp := passFile_one b hd.massarr t ht hdat ⟨0, false, [0, 0, 0, 0, 0, 0]⟩ fmt2 swap true hd.npart file
            ⟨0, b.width, List.replicate (if (fs base).isSome = true then hd.npart.getD t 0 else hd.nall.getD t 0) none⟩
            ⟨offsetOf (actualFor hd.massarr b.name (some t)) (if (fs base).isSome = true then hd.npart else hd.nall), b.name.width,
              List.replicate (if (fs base).isSome = true then hd.npart.getD t 0 else hd.nall.getD t 0) none⟩ ⟨h0, hwid, rfl⟩
          generalize readOne b hd.massarr t fmt2 swap true hd.npart file _ = x at hp ⊢
          generalize passFile _ fmt2 swap true hd.npart file _ = y at hp ⊢
          cases x <;> cases y
          · simp only [SameResult] at hp; subst hp; rfl
          · exact hp.elim
          · exact hp.elim
          · rename_i a s
            simp only [Except.bind]
            split
            · simp only [SameResult] at hp
              rw [hp.2.2]
            · have hr := passRest_one fs base b hd.massarr t ht hdat ⟨0, false, [0, 0, 0, 0, 0, 0]⟩ fmt2 swap
                (List.range' 1 (hd.filenum - 1)) a s hp
              generalize readRest fs base b hd.massarr t fmt2 swap _ a = x at hr ⊢
              generalize passRest fs base _ fmt2 swap _ s = y at hr ⊢
              cases x <;> cases y
              · simp only [SameResult] at hr; subst hr; rfl
              · exact hr.elim
              · exact hr.elim
              · simp only [SameResult] at hr
                simp only [Except.map, hr.2.2]

end Verif.Gadget
