import Verif.Gadget.Layouts
import Verif.Gadget.SnapExamples

/-!
# All blocks of snapshots: counterexamples and examples (C123)
-/

namespace Verif.Gadget

/-! ## Masses of all types -/

/-- C123 is false for the masses of all types at once, if they are all in the header: the block, which does not exist, is looked
for and the program exits. -/
theorem C123_header_masses_refuted (fs : String → Option (List Nat)) (base : String) (big : Bool) (idw : Nat)
    (L : Layout) (nall massarr : List Nat) (ws : List Written)
    (hd : GOnDisk fs base big (ws.map fun w => w.file idw (L.order.take 3)))
    (hs : GSnapshot (ws.map fun w => w.file idw (L.order.take 3)) nall massarr) :
    readAny fs base "MASS" (-1) (L.options nall) = .error .systemExit := by
  have hopt : (L.options nall).nall = nall := by cases L <;> rfl
  obtain ⟨f, rest, hfiles, hopen, hsingle⟩ := hd.first
  have hmem : f ∈ ws.map fun w => w.file idw (L.order.take 3) := by rw [hfiles]; exact List.mem_cons_self
  obtain ⟨w, hw, rfl⟩ := List.mem_map.1 hmem
  have hv := hs.valid _ hmem
  have hnum : blockNum (L.options nall) .mass = 5 := rfl
  have hlen : ((w.file idw (L.order.take 3)).records big).length ≤ 4 := by
    unfold GFile.records Written.file
    have : L.order.length ≥ 0 := Nat.zero_le _
    simp only [List.length_cons, List.length_map, List.length_take]
    omega
  have hfind : findBlock ((w.file idw (L.order.take 3)).bytes big) false big 5 = .error .systemExit :=
    C55_absent big _ (grecords_small hv big) 4 hlen
  have hparse : parseBlock "MASS" = some .mass := by decide
  unfold readAny
  simp only [partType, if_true, Except.bind, openFirst, openFile, hopen, gheader_bytes hv big, hparse]
  unfold readAny.go
  simp only
  rw [if_neg (by rw [hs.filenum _ hmem, hfiles]; simp)]
  unfold passFile
  simp only [hnum, hfind, Except.bind]

/-- They are read one type at a time, whatever blocks there are. -/
theorem C123_header_mass_partial (fs : String → Option (List Nat)) (base : String) (big : Bool) (idw : Nat) (o : Opts)
    (blocks : List BlockName) (massarr : List Nat) (ws : List Written)
    (hd : GOnDisk fs base big (ws.map fun w => w.file idw blocks))
    (hs : GSnapshot (ws.map fun w => w.file idw blocks) o.nall massarr) (t : Nat) (ht : t ≤ 5) (hm : massarr.getD t 0 ≠ 0) :
    readAny fs base "MASS" t o =
      .ok (List.replicate (ws.map fun w => w.header.npart.getD t 0).sum (some [massarr.getD t 0])) := by
  obtain ⟨f, rest, hfiles, hopen, hsingle⟩ := hd.first
  have hmem : f ∈ ws.map fun w => w.file idw blocks := by rw [hfiles]; exact List.mem_cons_self
  have hv := hs.valid _ hmem
  have hparse : parseBlock "MASS" = some .mass := by decide
  have hsum : (ws.map fun w => w.header.npart.getD t 0).sum =
      ((ws.map fun w => w.file idw blocks).map fun g => g.header.npart.getD t 0).sum := by
    rw [List.map_map]; rfl
  unfold readAny
  rw [partType_ok t (.inr ⟨by omega, by omega⟩), if_neg (by omega), Int.toNat_natCast]
  simp only [Except.bind, openFirst, openFile, hopen, gheader_bytes hv big, hparse]
  rw [hs.massarr f hmem, if_pos ⟨trivial, hm⟩]
  congr 2
  by_cases h1 : (fs base).isSome = true
  · rw [if_pos h1, hsum, hfiles, hsingle h1]
    simp
  · rw [if_neg h1, hs.nall f hmem t (by omega), hsum]

/-! ## Another block -/

/-- The blocks of a Gadget snapshot without cooling. -/
def plainBlocks : List BlockName := [.pos, .vel, .id, .mass, .u, .rho, .hsml]

/-- C123 is false for blocks which are not in the file: asked for electron abundances of a snapshot which has none, `read_block`
returns the smoothing lengths. -/
theorem C123_wrong_block_refuted (fs : String → Option (List Nat)) (base : String) (big : Bool) (idw : Nat)
    (hidw : idw = 4 ∨ idw = 8) (nall massarr : List Nat) (ws : List Written)
    (hd : GOnDisk fs base big (ws.map fun w => w.file idw plainBlocks))
    (hs : GSnapshot (ws.map fun w => w.file idw plainBlocks) nall massarr) (hgood : ∀ w ∈ ws, w.Good idw .hsml) :
    readAny fs base "NE  " 0 ⟨0, false, nall⟩ = .ok ((ws.flatMap fun w => w.content .hsml 0).map some) := by
  -- the same bytes as those of files with electron abundances instead
  let swap : Written → Written := fun w => { w with content := Function.update w.content .ne (w.content .hsml) }
  have hfile : ∀ w : Written, w.file idw plainBlocks = (swap w).file idw ((Layout.gadget false).order.take 7) := by
    intro w
    have : (Layout.gadget false).order.take 7 = [.pos, .vel, .id, .mass, .u, .rho, .ne] := rfl
    rw [this]
    rfl
  have hmap : (ws.map fun w => w.file idw plainBlocks) =
      (ws.map swap).map fun w => w.file idw ((Layout.gadget false).order.take 7) := by
    rw [List.map_map]
    exact List.map_congr_left fun w _ => hfile w
  rw [hmap] at hd hs
  have h := C123_read_partial fs base big idw hidw (.gadget false) 7 nall massarr (ws.map swap) hd hs .ne (by decide) (by
    intro v hv
    obtain ⟨w, hw, rfl⟩ := List.mem_map.1 hv
    exact ⟨(hgood w hw).count, (hgood w hw).shape⟩) (by simp) 0 (.inr ⟨by decide, by decide, .inr rfl⟩)
  have e : blockLabel .ne = "NE  " := rfl
  rw [e] at h
  rw [show (⟨0, false, nall⟩ : Opts) = (Layout.gadget false).options nall from rfl, h]
  congr 1
  unfold typesRead
  rw [if_neg (by decide), List.flatMap_cons, List.flatMap_nil, List.append_nil, List.flatMap_map]
  rfl

/-! ## Examples -/

/-- Two files with gas, dark matter (mass in the header) and stars. -/
def sample (shift files : Nat) (npart nall : List Nat) : Written where
  header := hdr files npart nall
  pad := List.replicate 96 0
  content := fun b j => if dataFor [0, 7, 0, 0, 0, 0] b j then
    (List.range (npart.getD j 0)).map fun k => List.replicate (numbers b) (shift + 10 * j + k) else []

/-- The first file. -/
def sampleA : Written := sample 1 2 [2, 1, 0, 0, 1, 0] [3, 1, 0, 0, 2, 0]
/-- The second file. -/
def sampleB : Written := sample 100 2 [1, 0, 0, 0, 1, 0] [3, 1, 0, 0, 2, 0]

theorem sample_good (shift files : Nat) (npart nall : List Nat) (hn : npart.length = 6) (h : ∀ n ∈ npart, n < 10) (hsh : shift ≤ 100)
    (b : BlockName) : (sample shift files npart nall).Good 4 b := by
  have hj : ∀ j, npart.getD j 0 < 10 ∧ (npart.getD j 0 ≠ 0 → j < 6) := by
    intro j
    rw [List.getD_eq_getElem?_getD]
    cases e : npart[j]? with
    | none => simp
    | some n =>
      refine ⟨h n (List.mem_of_getElem? e), fun _ => ?_⟩
      have := (List.getElem?_eq_some_iff.1 e).1
      omega
  refine ⟨?_, ?_⟩
  · intro j
    have e : (sample shift files npart nall).header.massarr = [0, 7, 0, 0, 0, 0] := rfl
    rw [e]
    by_cases hd : dataFor [0, 7, 0, 0, 0, 0] b j = true
    · rw [if_pos ((dataFor_iff _ _ _).1 hd)]
      simp [sample, hd, hdr]
    · rw [if_neg (fun h => hd ((dataFor_iff _ _ _).2 h))]
      simp [sample, hd]
  · intro j row hr
    simp only [sample] at hr
    split at hr
    · obtain ⟨k, hk, rfl⟩ := List.mem_map.1 hr
      rw [List.mem_range] at hk
      refine ⟨by simp, ?_⟩
      intro x hx
      obtain ⟨-, rfl⟩ := List.mem_replicate.1 hx
      have h1 := hj j
      have h2 := h1.2 (by omega)
      have h3 : 256 ^ 1 ≤ 256 ^ sizes 4 b := Nat.pow_le_pow_right (by norm_num) (by unfold sizes; split <;> omega)
      omega
    · cases hr

theorem sample_valid (shift files : Nat) (npart nall : List Nat) (h : (hdr files npart nall).Valid) (blocks : List BlockName)
    (hsmall : ∀ j, npart.getD j 0 < 10) : ((sample shift files npart nall).file 4 blocks).Valid := by
  refine ⟨h, rfl, ?_⟩
  intro big g hg
  obtain ⟨b, -, rfl⟩ := List.mem_map.1 hg
  unfold GBlock.bytes
  have hpart : ∀ j, (GBlock.part big ⟨sizes 4 b, (sample shift files npart nall).content b⟩ j).length ≤ 10 * (8 * 3) := by
    intro j
    unfold GBlock.part
    rw [List.length_flatMap]
    have h1 : ∀ row ∈ (sample shift files npart nall).content b j, (row.flatMap (enc big (sizes 4 b))).length ≤ 8 * 3 := by
      intro row hr
      simp only [sample] at hr
      split at hr
      · obtain ⟨k, hk, rfl⟩ := List.mem_map.1 hr
        rw [List.length_flatMap]
        simp only [length_enc, List.map_const', List.sum_replicate_nat, List.length_replicate]
        have : numbers b ≤ 3 := by unfold numbers; split <;> omega
        have : sizes 4 b ≤ 8 := by unfold sizes; split <;> omega
        nlinarith
      · cases hr
    have h2 : ((sample shift files npart nall).content b j).length ≤ 10 := by
      simp only [sample]
      split
      · have := hsmall j
        simp only [List.length_map, List.length_range]
        omega
      · simp
    have h3 := List.sum_le_card_nsmul (((sample shift files npart nall).content b j).map fun row => (row.flatMap (enc big (sizes 4 b))).length)
      (8 * 3) (by
        intro x hx
        obtain ⟨row, hr, rfl⟩ := List.mem_map.1 hx
        exact h1 row hr)
    simp only [List.length_map, smul_eq_mul] at h3
    calc _ ≤ _ := h3
      _ ≤ _ := Nat.mul_le_mul_right _ h2
  rw [List.length_flatMap]
  have h4 := List.sum_le_card_nsmul ((List.range 6).map fun j => (GBlock.part big ⟨sizes 4 b, (sample shift files npart nall).content b⟩ j).length)
    (10 * (8 * 3)) (by
      intro x hx
      obtain ⟨j, -, rfl⟩ := List.mem_map.1 hx
      exact hpart j)
  simp only [List.length_map, List.length_range, smul_eq_mul] at h4
  calc _ ≤ _ := h4
    _ < _ := by norm_num

/-- A disk with the two files. -/
def sampleDisk (big : Bool) (blocks : List BlockName) (name : String) : Option (List Nat) :=
  if name = "s.0" then some ((sampleA.file 4 blocks).bytes big)
  else if name = "s.1" then some ((sampleB.file 4 blocks).bytes big) else none

theorem sample_disk (big : Bool) (blocks : List BlockName) :
    GOnDisk (sampleDisk big blocks) "s" big ([sampleA, sampleB].map fun w => w.file 4 blocks) := by
  refine .several _ (by simp) (by simp [sampleDisk]) ?_
  intro k hk
  simp only [List.map_cons, List.map_nil, List.length_cons, List.length_nil] at hk
  interval_cases k
  · have : "s" ++ "." ++ toString 0 = "s.0" := by decide
    rw [this]
    simp [sampleDisk]
  · have : "s" ++ "." ++ toString 1 = "s.1" := by decide
    rw [this]
    simp [sampleDisk]

theorem sample_snapshot (blocks : List BlockName) :
    GSnapshot ([sampleA, sampleB].map fun w => w.file 4 blocks) [0, 0, 0, 0, 0, 0] [0, 7, 0, 0, 0, 0] := by
  have small : ∀ npart : List Nat, npart.length = 6 → (∀ n ∈ npart, n < 10) → ∀ j, npart.getD j 0 < 10 := by
    intro npart _ h j
    rw [List.getD_eq_getElem?_getD]
    cases e : npart[j]? with
    | none => simp
    | some n => exact h n (List.mem_of_getElem? e)
  refine ⟨?_, ?_, ?_, ?_⟩
  · intro f hf
    simp only [List.map_cons, List.map_nil, List.mem_cons, List.not_mem_nil, or_false] at hf
    rcases hf with rfl | rfl
    · refine sample_valid _ _ _ _ ?_ _ (small _ rfl (by decide))
      constructor <;> simp [hdr]
    · refine sample_valid _ _ _ _ ?_ _ (small _ rfl (by decide))
      constructor <;> simp [hdr]
  · intro f hf
    simp only [List.map_cons, List.map_nil, List.mem_cons, List.not_mem_nil, or_false] at hf
    rcases hf with rfl | rfl <;> rfl
  · intro f hf
    simp only [List.map_cons, List.map_nil, List.mem_cons, List.not_mem_nil, or_false] at hf
    rcases hf with rfl | rfl <;> rfl
  · intro f hf j hj
    simp only [List.map_cons, List.map_nil, List.mem_cons, List.not_mem_nil, or_false] at hf
    interval_cases j <;> rcases hf with rfl | rfl <;> rfl

theorem samples_good (b : BlockName) : ∀ w ∈ [sampleA, sampleB], w.Good 4 b := by
  intro w hw
  simp only [List.mem_cons, List.not_mem_nil, or_false] at hw
  rcases hw with rfl | rfl
  · exact sample_good 1 2 _ _ rfl (by decide) (by decide) b
  · exact sample_good 100 2 _ _ rfl (by decide) (by decide) b

/-- Metallicities of gas and stars in two files: gas of the first file, of the second file, stars of the first file, of the
second file. -/
example (big : Bool) : readAny (sampleDisk big ((Layout.gadget false).order.take 14)) "s" "Z   " (-1) ⟨0, false, [0, 0, 0, 0, 0, 0]⟩ =
    .ok [some [1], some [2], some [100], some [41], some [140]] := by
  have h := C123_read_partial _ "s" big 4 (.inl rfl) (.gadget false) 14 [0, 0, 0, 0, 0, 0] [0, 7, 0, 0, 0, 0]
    [sampleA, sampleB] (sample_disk big _) (sample_snapshot _) .z (by decide) (samples_good .z) (by simp) (-1) (.inl rfl)
  have e : (Layout.gadget false).options [0, 0, 0, 0, 0, 0] = ⟨0, false, [0, 0, 0, 0, 0, 0]⟩ := rfl
  rw [e] at h
  refine h.trans ?_
  have ht : typesRead [0, 7, 0, 0, 0, 0] .z (-1) = [0, 4] := by
    unfold typesRead
    rw [if_pos rfl]
    simp [List.range_succ, about, List.filter]
  rw [ht]
  rfl

/-- Smoothing lengths instead of electron abundances. -/
example (big : Bool) : readAny (sampleDisk big plainBlocks) "s" "NE  " 0 ⟨0, false, [0, 0, 0, 0, 0, 0]⟩ =
    .ok [some [1], some [2], some [100]] :=
  C123_wrong_block_refuted _ "s" big 4 (.inl rfl) _ _ [sampleA, sampleB] (sample_disk big _) (sample_snapshot _)
    (samples_good .hsml)

/-- Two particles of dark matter, whose mass is in the header: the masses of type 1 can be read, those of all types cannot. -/
example (big : Bool) : ∃ fs : String → Option (List Nat),
    readAny fs "s" "MASS" 1 ⟨0, true, [0, 0, 0, 0, 0, 0]⟩ = .ok [some [7], some [7]] ∧
    readAny fs "s" "MASS" (-1) ⟨0, true, [0, 0, 0, 0, 0, 0]⟩ = .error .systemExit := by
  set w := sample 1 1 [0, 2, 0, 0, 0, 0] [0, 2, 0, 0, 0, 0] with hw
  have hd : GOnDisk (fun n => if n = "s" then some ((w.file 4 ((Layout.gadget true).order.take 3)).bytes big) else none) "s" big
      ([w].map fun w => w.file 4 ((Layout.gadget true).order.take 3)) := .single _ (by simp)
  have hs : GSnapshot ([w].map fun w => w.file 4 ((Layout.gadget true).order.take 3)) [0, 0, 0, 0, 0, 0] [0, 7, 0, 0, 0, 0] := by
    refine ⟨?_, ?_, ?_, ?_⟩
    · intro f hf
      rw [List.map_cons, List.map_nil, List.mem_singleton] at hf
      subst hf
      refine sample_valid _ _ _ _ ?_ _ ?_
      · constructor <;> simp [hdr]
      · intro j
        rw [List.getD_eq_getElem?_getD]
        cases e : ([0, 2, 0, 0, 0, 0] : List Nat)[j]? with
        | none => simp
        | some n =>
          have := List.mem_of_getElem? e
          simp only [List.mem_cons, List.not_mem_nil, or_false] at this
          simp only [Option.getD_some]
          omega
    · intro f hf
      rw [List.map_cons, List.map_nil, List.mem_singleton] at hf
      subst hf
      rfl
    · intro f hf
      rw [List.map_cons, List.map_nil, List.mem_singleton] at hf
      subst hf
      rfl
    · intro f hf j hj
      rw [List.map_cons, List.map_nil, List.mem_singleton] at hf
      subst hf
      interval_cases j <;> rfl
  exact ⟨_, C123_header_mass_partial _ "s" big 4 ⟨0, true, [0, 0, 0, 0, 0, 0]⟩ _ _ [w] hd hs 1 (by decide) (by decide),
    C123_header_masses_refuted _ "s" big 4 (.gadget true) _ _ [w] hd hs⟩

end Verif.Gadget
