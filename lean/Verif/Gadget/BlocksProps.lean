import Verif.Gadget.Blocks
import Verif.Gadget.BlockProps

/-!
# All blocks of binary snapshots (C123)
-/

namespace Verif.Gadget

/-! ## Specification -/

/-- A block of a file: bytes per number, and for each type the numbers of its particles. -/
structure GBlock where
  width : Nat
  rows : Nat → List (List Nat)

/-- Bytes of the particles of one type. -/
def GBlock.part (big : Bool) (b : GBlock) (j : Nat) : List Nat :=
  (b.rows j).flatMap fun row => row.flatMap (enc big b.width)

/-- Data of the block: one type after the other. -/
def GBlock.bytes (big : Bool) (b : GBlock) : List Nat := (List.range 6).flatMap (b.part big)

/-- A file of format 1: the header and any number of blocks. -/
structure GFile where
  header : Header
  pad : List Nat
  blocks : List GBlock

/-- Records of the file. -/
def GFile.records (big : Bool) (f : GFile) : List (List Nat) :=
  headerBytes big f.header f.pad :: f.blocks.map (GBlock.bytes big)

/-- The file: all records with their markers. -/
def GFile.bytes (big : Bool) (f : GFile) : List Nat := ((f.records big).map (record big)).flatten

/-- Numbers fit into their fields. -/
structure GFile.Valid (f : GFile) : Prop where
  header : f.header.Valid
  pad : f.pad.length = 96
  small : ∀ big, ∀ b ∈ f.blocks, (b.bytes big).length < 2 ^ 32

/-- Block number `num` (the header is number 1) consists of `rows j` for the particles of type `j`, for the types
`types`. -/
structure Holds (f : GFile) (num comps width : Nat) (types : Nat → Bool) (rows : Nat → List (List Nat)) : Prop where
  two : 2 ≤ num
  here : f.blocks[num - 2]? = some ⟨width, rows⟩
  count : ∀ j, (rows j).length = if types j then f.header.npart.getD j 0 else 0
  shape : ∀ j, ∀ row ∈ rows j, row.length = comps ∧ ∀ x ∈ row, x < 256 ^ width

/-! ## One file -/

theorem gheader_bytes {f : GFile} (hv : f.Valid) (big : Bool) : snapshotHeader (f.bytes big) = .ok (false, big, f.header) := by
  have : ∃ rest, f.bytes big = headerRecord big false f.header f.pad ++ rest := by
    unfold GFile.bytes GFile.records headerRecord
    rw [List.map_cons, List.flatten_cons]
    exact ⟨_, rfl⟩
  obtain ⟨rest, h⟩ := this
  rw [h]
  exact C90_header big false f.header hv.header f.pad hv.pad rest

theorem grecords_small {f : GFile} (hv : f.Valid) (big : Bool) : ∀ r ∈ f.records big, r.length < 2 ^ 32 := by
  intro r hr
  unfold GFile.records at hr
  rcases List.mem_cons.1 hr with rfl | hr
  · rw [length_headerBytes big _ hv.header _ hv.pad]; norm_num
  · obtain ⟨b, hb, rfl⟩ := List.mem_map.1 hr
    exact hv.small big b hb

theorem gfind {f : GFile} (hv : f.Valid) (big : Bool) {num comps width : Nat} {types : Nat → Bool}
    {rows : Nat → List (List Nat)} (h : Holds f num comps width types rows) :
    ∃ off rest, findBlock (f.bytes big) false big num = .ok (off, (GBlock.bytes big ⟨width, rows⟩).length) ∧
      (f.bytes big).drop off = GBlock.bytes big ⟨width, rows⟩ ++ rest := by
  have h2 := h.two
  have hget : (f.records big)[num - 1]? = some (GBlock.bytes big ⟨width, rows⟩) := by
    unfold GFile.records
    rw [show num - 1 = (num - 2) + 1 by omega, List.getElem?_cons_succ, List.getElem?_map, h.here]
    rfl
  obtain ⟨hk, hget⟩ := List.getElem?_eq_some_iff.1 hget
  have hf := findFrom_records big (f.records big) (grecords_small hv big) [] 1 (num - 1) hk
  simp only [List.nil_append, List.length_nil, Nat.zero_add, show 1 + (num - 1) = num by omega, hget] at hf
  obtain ⟨off, size, h1, h3⟩ := C55_found big (f.records big) (grecords_small hv big) (num - 1) hk
  rw [show num - 1 + 1 = num by omega, findBlock, show (f.records big |>.map (record big)).flatten = f.bytes big from rfl] at h1
  have hf' : findFrom (f.bytes big) false big num 0 1 = _ := hf
  rw [hf'] at h1
  simp only [Except.ok.injEq, Prod.mk.injEq] at h1
  obtain ⟨rfl, rfl⟩ := h1
  refine ⟨_, ((f.bytes big).drop (recordOffset (f.records big) (num - 1))).drop (GBlock.bytes big ⟨width, rows⟩).length,
    hf', ?_⟩
  rw [hget] at h3
  conv_lhs => rw [← List.take_append_drop (GBlock.bytes big ⟨width, rows⟩).length
    ((f.bytes big).drop (recordOffset (f.records big) (num - 1)))]
  congr 1

theorem length_row (big : Bool) (width comps : Nat) (row : List Nat) (h : row.length = comps) :
    (row.flatMap (enc big width)).length = width * comps := by
  rw [List.length_flatMap]
  simp only [length_enc, List.map_const', List.sum_replicate_nat, h, mul_comm]

theorem length_gpart (big : Bool) {comps width : Nat} {rows : Nat → List (List Nat)}
    (h : ∀ j, ∀ row ∈ rows j, row.length = comps ∧ ∀ x ∈ row, x < 256 ^ width) (j : Nat) :
    (GBlock.part big ⟨width, rows⟩ j).length = (rows j).length * (width * comps) := by
  unfold GBlock.part
  rw [List.length_flatMap]
  have : (rows j).map (fun row => (row.flatMap (enc big width)).length) = (rows j).map fun _ => width * comps :=
    List.map_congr_left fun row hr => length_row big width comps row (h j row hr).1
  rw [this]
  simp

theorem range_split (j k : Nat) (h : j < k) : List.range k = List.range j ++ j :: List.range' (j + 1) (k - j - 1) := by
  have h1 := @List.range'_append_1 0 j (k - j)
  rw [Nat.zero_add, show j + (k - j) = k by omega] at h1
  rw [List.range_eq_range', List.range_eq_range', ← h1, show k - j = (k - j - 1) + 1 by omega, List.range'_succ]
  rfl

theorem length_gparts (big : Bool) {f : GFile} {num comps width : Nat} {types : Nat → Bool} {rows : Nat → List (List Nat)}
    (h : Holds f num comps width types rows) (j : Nat) :
    ((List.range j).flatMap (GBlock.part big ⟨width, rows⟩)).length =
      offsetOf types f.header.npart j * (width * comps) := by
  rw [List.length_flatMap, offsetOf, ← List.sum_map_mul_right]
  congr 1
  apply List.map_congr_left
  intro i _
  rw [length_gpart big h.shape, h.count]

theorem items_rows (big : Bool) (width comps : Nat) (rows : List (List Nat))
    (h : ∀ row ∈ rows, row.length = comps ∧ ∀ x ∈ row, x < 256 ^ width) (rest : List Nat) :
    (items (width * comps) rows.length ((rows.flatMap fun row => row.flatMap (enc big width)) ++ rest)).map
      (particle big width comps) = rows := by
  have hi := items_append (width * comps) (rows.map fun row => row.flatMap (enc big width)) (by
    intro c hc
    obtain ⟨row, hr, rfl⟩ := List.mem_map.1 hc
    exact length_row big width comps row (h row hr).1) rest
  rw [List.length_map, ← List.flatMap_def] at hi
  rw [hi, List.map_map]
  conv_rhs => rw [← List.map_id rows]
  apply List.map_congr_left
  intro row hr
  have := arrayAt_append big [] [] width row 0 rfl (h row hr).2 comps (h row hr).1 _ rfl
  simpa [arrayAt, particle] using this

/-- What is read of a file with `np.fromfile`. -/
def current (ptype : Option Nat) (rows : Nat → List (List Nat)) : List (List Nat) :=
  match ptype with
  | some t => rows t
  | none => (List.range 6).flatMap rows

/-- One pass of the loop over the files: find the block, check its size, read the particles. -/
theorem passFile_bytes {f : GFile} (hv : f.Valid) (big : Bool) (q : Request) (hq : ∀ t, q.ptype = some t → t < 6 ∧
    dataFor q.massarr q.block t = true) {width : Nat} {rows : Nat → List (List Nat)}
    (h : Holds f q.num q.block.comps width (dataFor q.massarr q.block) rows) (first : Bool) (s : AllLoop)
    (hw : (if first ∧ q.block = .id ∧ (GBlock.bytes big ⟨width, rows⟩).length =
      s.width * offsetOf (dataFor q.massarr q.block) f.header.npart 6 * 2 then 8 else s.width) = width) :
    passFile q false big first f.header.npart (f.bytes big) s =
      (List.range 6).foldlM (fillType q f.header.npart ((current q.ptype rows).map (storeRow q.block)))
        { s with width := width } := by
  obtain ⟨off, rest, h1, h2⟩ := gfind hv big h
  have htot : (GBlock.bytes big ⟨width, rows⟩).length =
      offsetOf (dataFor q.massarr q.block) f.header.npart 6 * (width * q.block.comps) := length_gparts big h 6
  unfold passFile
  simp only [h1, Except.bind, hw]
  rw [if_neg (by rw [htot]; simp [mul_comm])]
  congr 2
  have hmap : ∀ l : List (List Nat), (l.map fun bs => storeRow q.block (particle big width q.block.comps bs)) =
      (l.map (particle big width q.block.comps)).map (storeRow q.block) := by
    intro l; rw [List.map_map]; rfl
  rw [hmap]
  congr 1
  cases ht : q.ptype with
  | none =>
    simp only [current]
    have e : offsetOf (dataFor q.massarr q.block) f.header.npart 6 = ((List.range 6).flatMap rows).length := by
      rw [offsetOf, List.length_flatMap]
      congr 1
      apply List.map_congr_left
      intro i _
      rw [h.count]
    rw [e, Nat.zero_mul, Nat.add_zero, h2]
    have e2 : GBlock.bytes big ⟨width, rows⟩ = ((List.range 6).flatMap rows).flatMap fun row => row.flatMap (enc big width) := by
      unfold GBlock.bytes
      rw [List.flatMap_assoc]
      rfl
    rw [e2]
    apply items_rows
    intro row hr
    obtain ⟨j, -, hj⟩ := List.mem_flatMap.1 hr
    exact h.shape j row hj
  | some t =>
    obtain ⟨ht6, hd⟩ := hq t ht
    simp only [current]
    have hn : f.header.npart.getD t 0 = (rows t).length := by rw [h.count, if_pos hd]
    rw [hn, ← List.drop_drop, h2, ← length_gparts big h t]
    have hs : GBlock.bytes big ⟨width, rows⟩ = (List.range t).flatMap (GBlock.part big ⟨width, rows⟩) ++
        (GBlock.part big ⟨width, rows⟩ t ++ (List.range' (t + 1) (6 - t - 1)).flatMap (GBlock.part big ⟨width, rows⟩)) := by
      unfold GBlock.bytes
      rw [range_split t 6 ht6, List.flatMap_append, List.flatMap_cons]
    rw [hs]
    simp only [List.append_assoc]
    rw [List.drop_left]
    exact items_rows big width q.block.comps (rows t) (h.shape t) _

/-! ## The loop over the types -/

/-- The array `data`: for each type the particles read so far, and room for the others. -/
def flat (room : Nat → Nat) (done : Nat → List (List Nat)) : List (Option (List Nat)) :=
  (List.range 6).flatMap fun j => (done j).map some ++ List.replicate (room j - (done j).length) none

/-- Room of the types below `j`. -/
def before (room : Nat → Nat) (j : Nat) : Nat := ((List.range j).map room).sum

/-- The variables of the loop when the particles `done` have been read. -/
structure View (room : Nat → Nat) (done : Nat → List (List Nat)) (s : AllLoop) : Prop where
  data : s.data = flat room done
  next : ∀ j, s.next j = before room j + (done j).length
  fits : ∀ j, (done j).length ≤ room j

theorem flat_split (room : Nat → Nat) (done : Nat → List (List Nat)) (j : Nat) (hj : j < 6) (hfit : ∀ j, (done j).length ≤ room j) :
    ∃ pre post, pre.length = before room j ∧ ∀ new, flat room (Function.update done j new) =
      pre ++ (new.map some ++ (List.replicate (room j - new.length) none ++ post)) := by
  refine ⟨(List.range j).flatMap fun j => (done j).map some ++ List.replicate (room j - (done j).length) none,
    (List.range' (j + 1) (6 - j - 1)).flatMap fun j => (done j).map some ++ List.replicate (room j - (done j).length) none,
    ?_, ?_⟩
  · rw [List.length_flatMap, before]
    congr 1
    apply List.map_congr_left
    intro i _
    have := hfit i
    simp
    omega
  · intro new
    unfold flat
    rw [range_split j 6 hj, List.flatMap_append, List.flatMap_cons, Function.update_self, List.append_assoc]
    congr 1
    · apply List.flatMap_congr
      intro i hi
      rw [List.mem_range] at hi
      rw [Function.update_of_ne (by omega)]
    · congr 2
      apply List.flatMap_congr
      intro i hi
      rw [List.mem_range'_1] at hi
      rw [Function.update_of_ne (by omega)]

theorem assign_middle {α : Type} (pre post : List (Option α)) (done xs : List α) (r : Nat) (h : xs.length ≤ r) :
    assignSlice (pre ++ (done.map some ++ (List.replicate r none ++ post))) (pre.length + done.length) xs.length xs =
      .ok (pre ++ ((done ++ xs).map some ++ (List.replicate (r - xs.length) none ++ post))) := by
  have hlo : pre.length + done.length = (pre ++ done.map some).length := by simp
  have hm : min xs.length ((pre ++ (done.map some ++ (List.replicate r (none : Option α) ++ post))).length -
      (pre.length + done.length)) = xs.length := by
    simp only [List.length_append, List.length_map, List.length_replicate]
    omega
  unfold assignSlice
  simp only [hm, if_true]
  rw [hlo, ← List.append_assoc pre, List.take_left, ← List.drop_drop, List.drop_left,
    List.drop_append_of_le_length (by simpa using h), List.drop_replicate, List.map_append]
  simp only [List.append_assoc]

theorem assign_const_middle {α : Type} (pre post : List (Option α)) (done : List α) (x : α) (n r : Nat) (h : n ≤ r) :
    assignConst (pre ++ (done.map some ++ (List.replicate r none ++ post))) (pre.length + done.length) n x =
      pre ++ ((done ++ List.replicate n x).map some ++ (List.replicate (r - n) none ++ post)) := by
  have hlo : pre.length + done.length = (pre ++ done.map some).length := by simp
  have hm : min n ((pre ++ (done.map some ++ (List.replicate r (none : Option α) ++ post))).length -
      (pre.length + done.length)) = n := by
    simp only [List.length_append, List.length_map, List.length_replicate]
    omega
  unfold assignConst
  simp only [hm]
  rw [hlo, ← List.append_assoc pre, List.take_left, ← List.drop_drop, List.drop_left,
    List.drop_append_of_le_length (by simpa using h), List.drop_replicate, List.map_append, List.map_replicate]
  simp only [List.append_assoc]

/-- What a file contributes to the particles of type `j` in the result: nothing if they are not asked for, the mass of
the header, or the numbers in the block. -/
def share (q : Request) (npart : List Nat) (rows : Nat → List (List Nat)) (j : Nat) : List (List Nat) :=
  if actualFor q.massarr q.block q.ptype j then
    if q.block = .mass ∧ q.massarr.getD j 0 ≠ 0 then List.replicate (npart.getD j 0) [q.massarr.getD j 0]
    else (rows j).map (storeRow q.block)
  else []

theorem fillType_view (q : Request) (npart : List Nat) (rows : Nat → List (List Nat))
    (hq : ∀ t, q.ptype = some t → dataFor q.massarr q.block t = true)
    (hcount : ∀ j, (rows j).length = if dataFor q.massarr q.block j then npart.getD j 0 else 0) (room : Nat → Nat)
    (done : Nat → List (List Nat)) (s : AllLoop) (hs : View room done s) (j : Nat) (hj : j < 6)
    (hroom : (done j).length + (share q npart rows j).length ≤ room j) :
    ∃ s', fillType q npart ((current q.ptype rows).map (storeRow q.block)) s j = .ok s' ∧ s'.width = s.width ∧
      View room (Function.update done j (done j ++ share q npart rows j)) s' := by
  unfold fillType
  by_cases ha : actualFor q.massarr q.block q.ptype j = true
  swap
  · rw [if_neg ha]
    refine ⟨s, rfl, rfl, ?_⟩
    have : share q npart rows j = [] := by unfold share; rw [if_neg ha]
    rw [this, List.append_nil, Function.update_eq_self]
    exact hs
  rw [if_pos ha]
  obtain ⟨pre, post, hpre, hflat⟩ := flat_split room done j hj hs.fits
  have h0 := hflat (done j)
  rw [Function.update_eq_self] at h0
  have hnext : s.next j = pre.length + (done j).length := by rw [hs.next, hpre]
  have hlen : (share q npart rows j).length = npart.getD j 0 := by
    unfold share
    rw [if_pos ha]
    by_cases hm : q.block = .mass ∧ q.massarr.getD j 0 ≠ 0
    · rw [if_pos hm]; simp
    · rw [if_neg hm, List.length_map, hcount, if_pos]
      cases ht : q.ptype with
      | some t =>
        rw [ht] at ha
        simp only [actualFor, decide_eq_true_eq] at ha
        subst ha
        exact hq j ht
      | none =>
        rw [ht] at ha
        simp only [actualFor, Bool.decide_or, Bool.decide_eq_true, Bool.or_eq_true, decide_eq_true_eq] at ha
        rcases ha with ha | ha
        · have : q.massarr.getD j 0 = 0 := by
            by_contra hc
            exact hm ⟨ha, hc⟩
          rw [ha]
          simpa [dataFor] using this
        · exact ha
  have hdata : fillData q npart ((current q.ptype rows).map (storeRow q.block)) s j =
      .ok (flat room (Function.update done j (done j ++ share q npart rows j))) := by
    unfold fillData
    rw [hflat, hs.data, h0, hnext]
    by_cases hm : q.block = .mass ∧ q.massarr.getD j 0 ≠ 0
    · rw [if_pos hm, assign_const_middle _ _ _ _ _ _ (by rw [hlen] at hroom; omega)]
      have : share q npart rows j = List.replicate (npart.getD j 0) [q.massarr.getD j 0] := by
        unfold share; rw [if_pos ha, if_pos hm]
      rw [this, List.length_append, List.length_replicate, Nat.sub_sub]
    · rw [if_neg hm]
      have hsh : share q npart rows j = (rows j).map (storeRow q.block) := by
        unfold share; rw [if_pos ha, if_neg hm]
      have hass := assign_middle pre post (done j) (share q npart rows j) (room j - (done j).length) (by omega)
      rw [hlen] at hass
      rw [List.length_append, ← Nat.sub_sub, hlen]
      cases ht : q.ptype with
      | some t =>
        rw [ht] at ha
        simp only [actualFor, decide_eq_true_eq] at ha
        subst ha
        simp only [current]
        rw [← hsh]
        exact hass
      | none =>
        simp only [current]
        have : (((List.range 6).flatMap rows).map (storeRow q.block)).drop (offsetOf (dataFor q.massarr q.block) npart j) =
            share q npart rows j ++ ((List.range' (j + 1) (6 - j - 1)).flatMap rows).map (storeRow q.block) := by
          rw [range_split j 6 hj, List.flatMap_append, List.flatMap_cons, List.map_append, List.map_append, hsh]
          have e : offsetOf (dataFor q.massarr q.block) npart j =
              (((List.range j).flatMap rows).map (storeRow q.block)).length := by
            rw [List.length_map, List.length_flatMap, offsetOf]
            congr 1
            apply List.map_congr_left
            intro i _
            rw [hcount]
          rw [e, List.drop_left]
        rw [this, ← hlen, List.take_left, hlen]
        exact hass
  rw [hdata]
  refine ⟨_, rfl, rfl, ⟨rfl, ?_, ?_⟩⟩
  · intro i
    simp only
    by_cases hi : i = j
    · subst hi
      rw [Function.update_self, Function.update_self, hs.next, List.length_append, hlen]
      omega
    · rw [Function.update_of_ne hi, Function.update_of_ne hi, hs.next]
  · intro i
    by_cases hi : i = j
    · subst hi
      rw [Function.update_self, List.length_append]
      exact hroom
    · rw [Function.update_of_ne hi]
      exact hs.fits i

theorem fillTypes_view (q : Request) (npart : List Nat) (rows : Nat → List (List Nat))
    (hq : ∀ t, q.ptype = some t → dataFor q.massarr q.block t = true)
    (hcount : ∀ j, (rows j).length = if dataFor q.massarr q.block j then npart.getD j 0 else 0) (room : Nat → Nat)
    (done : Nat → List (List Nat)) (s : AllLoop) (hs : View room done s)
    (hroom : ∀ j < 6, (done j).length + (share q npart rows j).length ≤ room j) (k : Nat) (hk : k ≤ 6) :
    ∃ s', (List.range k).foldlM (fillType q npart ((current q.ptype rows).map (storeRow q.block))) s = .ok s' ∧
      s'.width = s.width ∧ View room (fun j => if j < k then done j ++ share q npart rows j else done j) s' := by
  induction k with
  | zero => exact ⟨s, rfl, rfl, by simpa using hs⟩
  | succ k ih =>
    obtain ⟨s', h1, h2, h3⟩ := ih (by omega)
    obtain ⟨s'', h4, h5, h6⟩ := fillType_view q npart rows hq hcount room _ s' h3 k (by omega)
      (by simpa using hroom k (by omega))
    refine ⟨s'', ?_, by rw [h5, h2], ?_⟩
    · rw [List.range_succ, List.foldlM_append, h1]
      show (List.foldlM _ s' [k] : Except ReadErr AllLoop) = _
      rw [List.foldlM_cons, h4]
      rfl
    · have : Function.update (fun j => if j < k then done j ++ share q npart rows j else done j) k
          ((if k < k then done k ++ share q npart rows k else done k) ++ share q npart rows k) =
          fun j => if j < k + 1 then done j ++ share q npart rows j else done j := by
        funext j
        by_cases hj : j = k
        · subst hj; simp
        · rw [Function.update_of_ne hj]
          by_cases h : j < k
          · rw [if_pos h, if_pos (by omega)]
          · rw [if_neg h, if_neg (by omega)]
      rw [this] at h6
      exact h6

/-! ## The loop over the files -/

theorem passRest_view (fs : String → Option (List Nat)) (base : String) (big : Bool) (q : Request)
    (hq : ∀ t, q.ptype = some t → t < 6 ∧ dataFor q.massarr q.block t = true) (width : Nat)
    (rows : GFile → Nat → List (List Nat)) (files : List GFile) (hv : ∀ f ∈ files, f.Valid)
    (hold : ∀ f ∈ files, Holds f q.num q.block.comps width (dataFor q.massarr q.block) (rows f)) (i : Nat)
    (hfs : ∀ k (hk : k < files.length), fs (base ++ "." ++ toString (i + k)) = some (files[k].bytes big))
    (room : Nat → Nat) (done : Nat → List (List Nat)) (s : AllLoop) (hs : View room done s) (hw : s.width = width)
    (hroom : ∀ j < 6, (done j).length + (files.flatMap fun f => share q f.header.npart (rows f) j).length ≤ room j) :
    ∃ s', passRest fs base q false big (List.range' i files.length) s = .ok s' ∧
      View room (fun j => if j < 6 then done j ++ files.flatMap fun f => share q f.header.npart (rows f) j else done j) s' := by
  induction files generalizing i done s with
  | nil => exact ⟨s, rfl, by simpa using hs⟩
  | cons f files ih =>
    have h0 := hfs 0 (by simp)
    simp only [Nat.add_zero, List.getElem_cons_zero] at h0
    have hvf := hv f List.mem_cons_self
    have hhf := hold f List.mem_cons_self
    rw [List.length_cons, List.range'_succ, passRest, openFile, h0]
    simp only [Except.bind, gheader_bytes hvf big]
    rw [passFile_bytes hvf big q hq hhf false s (by simpa using hw)]
    obtain ⟨s', h1, h2, h3⟩ := fillTypes_view q f.header.npart (rows f) (fun t ht => (hq t ht).2) hhf.count room done
      { s with width := width } ⟨hs.data, hs.next, hs.fits⟩
      (fun j hj => by
        have := hroom j hj
        rw [List.flatMap_cons, List.length_append] at this
        omega) 6 (le_refl _)
    rw [h1]
    obtain ⟨s'', h4, h5⟩ := ih (fun g hg => hv g (List.mem_cons_of_mem _ hg)) (fun g hg => hold g (List.mem_cons_of_mem _ hg))
      (i + 1)
      (by
        intro k hk
        have := hfs (k + 1) (by simpa using hk)
        rw [show i + (k + 1) = i + 1 + k by omega] at this
        simpa using this)
      _ s' h3 (by rw [h2])
      (fun j hj => by
        have := hroom j hj
        rw [List.flatMap_cons, List.length_append] at this
        simp only [hj, if_true, List.length_append]
        omega)
    refine ⟨s'', h4, ?_⟩
    have : (fun j => if j < 6 then (if j < 6 then done j ++ share q f.header.npart (rows f) j else done j) ++
          files.flatMap fun f => share q f.header.npart (rows f) j
        else (if j < 6 then done j ++ share q f.header.npart (rows f) j else done j)) =
        fun j => if j < 6 then done j ++ (f :: files).flatMap fun f => share q f.header.npart (rows f) j else done j := by
      funext j
      by_cases hj : j < 6
      · simp [hj]
      · simp [hj]
    rw [this] at h5
    exact h5

/-- The empty array. -/
theorem start_view (actual : Nat → Bool) (count : List Nat) (width : Nat) :
    View (fun j => if actual j then count.getD j 0 else 0) (fun _ => [])
      ⟨offsetOf actual count, width, List.replicate (offsetOf actual count 6) none⟩ := by
  refine ⟨?_, fun j => ?_, fun j => Nat.zero_le _⟩
  · unfold flat offsetOf
    simp only [List.map_nil, List.nil_append, List.length_nil, Nat.sub_zero]
    have : ∀ l : List Nat, (l.flatMap fun j => List.replicate (if actual j then count.getD j 0 else 0) (none : Option (List Nat))) =
        List.replicate ((l.map fun i => if actual i then count.getD i 0 else 0).sum) none := by
      intro l
      induction l with
      | nil => rfl
      | cons a l ih => rw [List.flatMap_cons, ih, List.map_cons, List.sum_cons, List.replicate_add]
    rw [this]
  · simp [before, offsetOf]

/-- A full array. -/
theorem flat_full (room : Nat → Nat) (done : Nat → List (List Nat)) (h : ∀ j < 6, (done j).length = room j) :
    flat room done = (List.range 6).flatMap fun j => (done j).map some := by
  unfold flat
  apply List.flatMap_congr
  intro j hj
  rw [h j (List.mem_range.1 hj)]
  simp

theorem length_share (q : Request) (npart : List Nat) (rows : Nat → List (List Nat))
    (hq : ∀ t, q.ptype = some t → dataFor q.massarr q.block t = true)
    (hcount : ∀ j, (rows j).length = if dataFor q.massarr q.block j then npart.getD j 0 else 0) (j : Nat) :
    (share q npart rows j).length = if actualFor q.massarr q.block q.ptype j then npart.getD j 0 else 0 := by
  unfold share
  by_cases ha : actualFor q.massarr q.block q.ptype j = true
  swap
  · rw [if_neg ha, if_neg ha]; rfl
  rw [if_pos ha, if_pos ha]
  by_cases hm : q.block = .mass ∧ q.massarr.getD j 0 ≠ 0
  · rw [if_pos hm]; simp
  · rw [if_neg hm, List.length_map, hcount, if_pos]
    cases ht : q.ptype with
    | some t =>
      rw [ht] at ha
      simp only [actualFor, decide_eq_true_eq] at ha
      subst ha
      exact hq j ht
    | none =>
      rw [ht] at ha
      simp only [actualFor, Bool.decide_or, Bool.decide_eq_true, Bool.or_eq_true, decide_eq_true_eq] at ha
      rcases ha with ha | ha
      · have : q.massarr.getD j 0 = 0 := by
          by_contra hc
          exact hm ⟨ha, hc⟩
        rw [ha]
        simpa [dataFor] using this
      · exact ha

/-- The files of a snapshot on disk: one, or several with numbers. -/
inductive GOnDisk (fs : String → Option (List Nat)) (base : String) (big : Bool) : List GFile → Prop
  | single (f : GFile) (h : fs base = some (f.bytes big)) : GOnDisk fs base big [f]
  | several (files : List GFile) (hne : files ≠ []) (hbase : fs base = none)
    (h : ∀ k (hk : k < files.length), fs (base ++ "." ++ toString k) = some (files[k].bytes big)) :
    GOnDisk fs base big files

/-- The files know their number, and the total numbers of particles are in the header or given by hand. -/
structure GSnapshot (files : List GFile) (nall : List Nat) (massarr : List Nat) : Prop where
  valid : ∀ f ∈ files, f.Valid
  massarr : ∀ f ∈ files, f.header.massarr = massarr
  filenum : ∀ f ∈ files, f.header.filenum = files.length
  nall : ∀ f ∈ files, ∀ j < 6, (if nall = [0, 0, 0, 0, 0, 0] then f.header.nall else nall).getD j 0 =
    (files.map fun g => g.header.npart.getD j 0).sum

/-- From the allocation on. -/
theorem go_files (fs : String → Option (List Nat)) (base : String) (o : Opts) (big : Bool) (files : List GFile)
    (hd : GOnDisk fs base big files) (massarr : List Nat) (hs : GSnapshot files o.nall massarr) (b : BlockName)
    (ptype : Option Nat) (hq : ∀ t, ptype = some t → t < 6 ∧ dataFor massarr b t = true) (width : Nat)
    (rows : GFile → Nat → List (List Nat))
    (hold : ∀ f ∈ files, Holds f (blockNum o b) b.comps width (dataFor massarr b) (rows f)) (f : GFile) (rest : List GFile)
    (hfiles : files = f :: rest)
    (hw : (if b = .id ∧ (GBlock.bytes big ⟨width, rows f⟩).length =
      b.width * offsetOf (dataFor massarr b) f.header.npart 6 * 2 then 8 else b.width) = width) :
    readAny.go fs base o f.header false big (fs base).isSome
      (if (fs base).isSome then f.header.npart else if o.nall = [0, 0, 0, 0, 0, 0] then f.header.nall else o.nall)
      (f.bytes big) b ptype =
    .ok ((List.range 6).flatMap fun j => (files.flatMap fun f =>
      share ⟨b, ptype, massarr, blockNum o b⟩ f.header.npart (rows f) j).map some) := by
  subst hfiles
  have hvf := hs.valid f List.mem_cons_self
  have hmf := hs.massarr f List.mem_cons_self
  have hhf := hold f List.mem_cons_self
  unfold readAny.go
  rw [hmf]
  simp only
  have hfn : f.header.filenum ≠ 0 := by rw [hs.filenum f List.mem_cons_self]; simp
  rw [if_neg hfn]
  have hlenf : ∀ g ∈ f :: rest, ∀ j, (share ⟨b, ptype, massarr, blockNum o b⟩ g.header.npart (rows g) j).length =
      if actualFor massarr b ptype j then g.header.npart.getD j 0 else 0 := by
    intro g hg j
    exact length_share ⟨b, ptype, massarr, blockNum o b⟩ g.header.npart (rows g) (fun t ht => (hq t ht).2) (hold g hg).count j
  cases hd with
  | single f h =>
    rw [h]
    simp only [Option.isSome_some, if_true]
    rw [passFile_bytes hvf big ⟨b, ptype, massarr, blockNum o b⟩ hq hhf true _ (by simpa using hw)]
    obtain ⟨s', h1, h2, h3⟩ := fillTypes_view ⟨b, ptype, massarr, blockNum o b⟩ f.header.npart (rows f)
      (fun t ht => (hq t ht).2) hhf.count _ _ _ (start_view (actualFor massarr b ptype) f.header.npart width)
      (fun j hj => by rw [hlenf f List.mem_cons_self]; simp) 6 (le_refl _)
    dsimp only at h1 ⊢
    rw [h1]
    simp only [Except.bind]
    rw [h3.data, flat_full _ _ (fun j hj => by simp only [hj, if_true, List.nil_append]; exact hlenf f List.mem_cons_self j)]
    congr 1
    apply List.flatMap_congr
    intro j hj
    simp [List.mem_range.1 hj]
  | several _ hne hbase h =>
    rw [hbase]
    simp only [Option.isSome_none, Bool.false_eq_true, if_false]
    have hroom : ∀ j < 6, ((f :: rest).flatMap fun f => share ⟨b, ptype, massarr, blockNum o b⟩ f.header.npart (rows f) j).length =
        if actualFor massarr b ptype j then
          (if o.nall = [0, 0, 0, 0, 0, 0] then f.header.nall else o.nall).getD j 0 else 0 := by
      intro j hj
      rw [List.length_flatMap, List.map_congr_left fun g hg => hlenf g hg j]
      by_cases ha : actualFor massarr b ptype j = true
      · simp only [ha, if_true]
        rw [hs.nall f List.mem_cons_self j hj]
      · simp [ha]
    rw [passFile_bytes hvf big ⟨b, ptype, massarr, blockNum o b⟩ hq hhf true _ (by simpa using hw)]
    obtain ⟨s', h1, h2, h3⟩ := fillTypes_view ⟨b, ptype, massarr, blockNum o b⟩ f.header.npart (rows f)
      (fun t ht => (hq t ht).2) hhf.count _ _ _
      (start_view (actualFor massarr b ptype) (if o.nall = [0, 0, 0, 0, 0, 0] then f.header.nall else o.nall) width)
      (fun j hj => by
        have := hroom j hj
        rw [List.flatMap_cons, List.length_append] at this
        rw [← this]
        simp) 6 (le_refl _)
    dsimp only at h1 ⊢
    rw [h1]
    simp only [Except.bind]
    obtain ⟨s'', h4, h5⟩ := passRest_view fs base big ⟨b, ptype, massarr, blockNum o b⟩ hq width rows rest
      (fun g hg => hs.valid g (List.mem_cons_of_mem _ hg)) (fun g hg => hold g (List.mem_cons_of_mem _ hg)) 1
      (by
        intro k hk
        have := h (k + 1) (by simpa using hk)
        rw [Nat.add_comm 1 k]
        simpa using this)
      _ _ s' h3 (by rw [h2])
      (fun j hj => by
        have := hroom j hj
        rw [List.flatMap_cons, List.length_append] at this
        rw [← this]
        simp only [hj, if_true, List.nil_append]
        omega)
    rw [hs.filenum f List.mem_cons_self, List.length_cons, Nat.add_sub_cancel, h4]
    simp only [Except.map]
    rw [h5.data, flat_full _ _ (fun j hj => by
      simp only [hj, if_true, List.nil_append]
      have := hroom j hj
      rwa [List.flatMap_cons] at this)]
    congr 1

end Verif.Gadget
