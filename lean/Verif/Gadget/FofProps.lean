import Verif.Gadget.Fof
import Mathlib.Data.List.Range
import Mathlib.Data.List.Basic
import Mathlib.Tactic.Ring
import Mathlib.Tactic.Linarith

/-!
# Group catalogues (C52, C53, C59, C68, C89)
-/

namespace Verif.Gadget

/-- C68. -/
theorem C68_part_types (name : String) (n : Nat) :
    getPartType name = .ok n ↔ (name, n) ∈ [("dm", 1), ("gas", 0), ("stars", 4)] := by
  unfold getPartType
  split
  · rename_i h; subst h; simp [eq_comm]
  · split
    · rename_i h; subst h; simp [eq_comm]
    · split
      · rename_i h; subst h; simp [eq_comm]
      · rename_i h1 h2 h3; simp [h1, h2, h3]

/-- C68. Everything else is an assertion error. -/
theorem C68_rejected (name : String) (h : name ∉ ["dm", "gas", "stars"]) :
    getPartType name = .error .assertionError := by
  simp only [List.mem_cons, List.not_mem_nil, or_false, not_or] at h
  simp [getPartType, h]

example : getPartType "gas" = .ok 0 ∧ getPartType "Gas" = .error .assertionError :=
  ⟨(C68_part_types _ _).2 (by simp), C68_rejected _ (by decide)⟩

/-! ## C89 -/

theorem splitRuns_digits (run ds : List Char) (hd : ∀ d ∈ ds, isDigit d = true) :
    splitRuns true run (ds ++ ".hdf5".toList) = [run ++ ds, ".hdf".toList, "5".toList, []] := by
  induction ds generalizing run with
  | nil =>
    simp [splitRuns, isDigit, Char.isDigit]
  | cons d ds ih =>
    have h := hd d List.mem_cons_self
    simp only [List.cons_append, splitRuns, h, if_true]
    rw [ih _ fun x hx => hd x (List.mem_cons_of_mem _ hx)]
    simp

theorem splitRuns_file (b : Bool) (run pre : List Char) (c : Char) (hc : isDigit c = false) (d : Char)
    (ds : List Char) (hd : ∀ x ∈ d :: ds, isDigit x = true) :
    ∃ front, splitRuns b run (pre ++ c :: (d :: ds ++ ".hdf5".toList)) =
      front ++ [d :: ds, ".hdf".toList, "5".toList, []] := by
  have hd0 := hd d List.mem_cons_self
  have hrest := splitRuns_digits [d] ds fun x hx => hd x (List.mem_cons_of_mem _ hx)
  induction pre generalizing b run with
  | nil =>
    cases b
    · refine ⟨[run ++ [c]], ?_⟩
      rw [List.nil_append, splitRuns, if_pos hc, List.cons_append, splitRuns,
        if_neg (by rw [hd0]; decide), Bool.not_false, hrest]
      rfl
    · refine ⟨[run, [c]], ?_⟩
      rw [List.nil_append, splitRuns, if_neg (by rw [hc]; decide), List.cons_append, Bool.not_true, splitRuns,
        if_neg (by rw [hd0]; decide), Bool.not_false, hrest]
      rfl
  | cons x pre ih =>
    rw [List.cons_append, splitRuns]
    split
    · exact ih _ _
    · obtain ⟨front, h⟩ := ih (!b) [x]
      exact ⟨run :: front, by rw [h]; rfl⟩

/-- Decimal value. -/
def decimal (ds : List Char) : Nat := ds.foldl (fun n c => 10 * n + (c.toNat - '0'.toNat)) 0

/-- The key of a file is its number, whatever the directory and base name (digits in these do not
matter). -/
theorem C89_file_number (pre : List Char) (c : Char) (hc : c.isDigit = false) (d : Char) (ds : List Char)
    (hd : ∀ x ∈ d :: ds, x.isDigit = true) :
    fileKey (pre ++ c :: (d :: ds ++ ".hdf5".toList)) = .ok (decimal (d :: ds)) := by
  obtain ⟨front, h⟩ := splitRuns_file false [] pre c hc d ds hd
  unfold fileKey reSplit
  rw [h]
  simp only [List.reverse_append, List.reverse_cons, List.reverse_nil, List.nil_append, List.cons_append,
    List.getElem?_cons_succ, List.getElem?_cons_zero]
  unfold parseInt
  rw [if_pos ⟨by simp, by simpa [List.all_eq_true, isDigit] using hd⟩]
  rfl

/-- C89. In whatever order the file system lists the files, they are read in the order of their
numbers. -/
theorem C89_file_order (pre : List Char) (c : Char) (hc : c.isDigit = false) (n : Nat)
    (num : Nat → List Char) (hne : ∀ i, num i ≠ []) (hdig : ∀ i, ∀ x ∈ num i, x.isDigit = true)
    (hnum : ∀ i, decimal (num i) = i)
    (globbed : List (List Char))
    (hglob : globbed.Perm ((List.range n).map fun i => pre ++ c :: (num i ++ ".hdf5".toList)))
    (keys : List Nat) (hkeys : globbed.mapM fileKey = .ok keys) (args : List Nat)
    (hargs : Stats.IsArgsort args keys) :
    sortFiles globbed args = .ok ((List.range n).map fun i => pre ++ c :: (num i ++ ".hdf5".toList)) := by
  have hkey : ∀ i, fileKey (pre ++ c :: (num i ++ ".hdf5".toList)) = .ok i := by
    intro i
    cases h : num i with
    | nil => exact absurd h (hne i)
    | cons d ds =>
      have h' := C89_file_number pre c hc d ds (h ▸ hdig i)
      rw [← h, hnum] at h'
      rw [← h]; exact h'
  -- the number of a file as a total function
  let val : List Char → Nat := fun f => match fileKey f with | .ok k => k | .error _ => 0
  have hval : ∀ f ∈ globbed, fileKey f = .ok (val f) := by
    intro f hf
    obtain ⟨i, -, rfl⟩ := List.mem_map.1 (hglob.mem_iff.1 hf)
    simp only [val, hkey]
  have hmapM : ∀ l : List (List Char), (∀ f ∈ l, fileKey f = .ok (val f)) → l.mapM fileKey = .ok (l.map val) := by
    intro l
    induction l with
    | nil => intro _; rfl
    | cons f l ih =>
      intro h
      rw [List.mapM_cons, h f List.mem_cons_self, ih fun x hx => h x (List.mem_cons_of_mem _ hx)]
      rfl
  have hk := hmapM globbed hval
  rw [hk] at hkeys
  have hkeys := Except.ok.inj hkeys
  subst hkeys
  unfold sortFiles
  rw [hk]
  simp only [Except.map]
  congr 1
  have hperm : (args.filterMap fun i => globbed[i]?).Perm globbed := by
    have h1 := hargs.1.filterMap fun i => globbed[i]?
    rw [List.length_map] at h1
    have h2 : ∀ l : List (List Char), ((List.range l.length).filterMap fun i => l[i]?) = l := by
      intro l
      induction l with
      | nil => rfl
      | cons f fs ih =>
        rw [List.length_cons, List.range_succ_eq_map, List.filterMap_cons]
        simp only [List.getElem?_cons_zero, List.filterMap_map]
        congr 1
    rwa [h2] at h1
  have hsorted : (args.filterMap fun i => globbed[i]?).Pairwise fun f g => val f ≤ val g := by
    have := hargs.2
    have h3 : (args.filterMap fun i => (globbed.map val)[i]?) = (args.filterMap fun i => globbed[i]?).map val := by
      rw [List.map_filterMap]
      congr 1
      funext i
      rw [List.getElem?_map]
    rw [h3, List.pairwise_map] at this
    exact this
  have hvalname : ∀ i, val (pre ++ c :: (num i ++ ".hdf5".toList)) = i := by
    intro i
    simp only [val, hkey]
  refine List.Perm.eq_of_pairwise (le := fun f g => val f ≤ val g) ?_ hsorted ?_ (hperm.trans hglob)
  · intro f g hf hg h1 h2
    obtain ⟨i, -, rfl⟩ := List.mem_map.1 ((hperm.trans hglob).mem_iff.1 hf)
    obtain ⟨j, -, rfl⟩ := List.mem_map.1 hg
    rw [hvalname, hvalname] at h1 h2
    rw [le_antisymm h1 h2]
  · rw [List.pairwise_map]
    refine (List.pairwise_lt_range).imp ?_
    intro i j h
    rw [hvalname, hvalname]
    exact h.le

/-- Twelve files: file 10 comes after file 9 though it is listed (alphabetically) after file 1. -/
example : fileKey "/data/run3/groups_099/fof_subhalo_tab_099.10.hdf5".toList = .ok 10 :=
  C89_file_number "/data/run3/groups_099/fof_subhalo_tab_099".toList '.' rfl '1' ['0'] (by decide)

example : sortFiles ["a.10.hdf5".toList, "a.2.hdf5".toList] [1, 0] = .ok ["a.2.hdf5".toList, "a.10.hdf5".toList] := by
  rfl

/-- The condition that files are numbered matters: without a number in name and path, reading fails. -/
example : fileKey "/data/groups/fof.hdf5".toList = .error .indexError := by rfl

/-! ## C52 -/

/-- The range of files of a process: all have `per`, the last one in addition the rest. -/
theorem filesOf_eq (n size rank : Nat) (hs : 0 < size) (hr : rank < size) :
    filesOf n size rank =
      if size ≤ n then List.range' (rank * (n / size))
        (if rank = size - 1 then n - rank * (n / size) else n / size)
      else if rank < n then [rank] else [] := by
  unfold filesOf perRank isLast
  by_cases h : size ≤ n
  · have hpos : 0 < n / size := Nat.div_pos h hs
    have h0 : n / size ≠ 0 := hpos.ne'
    simp only [h, if_true, h0, if_false, Nat.add_zero]
    have hmul : size * (n / size) ≤ n := Nat.mul_div_le n size
    have hrn : (rank : Int) ≤ (n : Int) - 1 := by omega
    by_cases hl : rank = size - 1
    · have hsz : rank + 1 = size := by omega
      rw [if_pos hl]
      have hlb : decide (rank = size - 1) = true := by simpa using hl
      simp only [hrn, b2i, decide_true, if_true, hlb]
      congr 1
      have : ((rank : Int) + 1) = size := by omega
      rw [this]
      have hsub : rank * (n / size) + n / size ≤ n := by
        calc rank * (n / size) + n / size = (rank + 1) * (n / size) := by ring
          _ ≤ n := by rw [hsz]; exact hmul
      generalize hq : n / size = q at *
      have e1 : (size : Int) * (q : Int) = (rank : Int) * q + q := by
        rw [← this]; ring
      rw [e1]
      have e2 : ((rank * q : Nat) : Int) = (rank : Int) * q := by push_cast; ring
      have : ((rank : Int) * q + 1 * (q + 1 * (n - ((rank : Int) * q + q))) - (rank : Int) * q) =
        (n : Int) - ((rank * q : Nat) : Int) := by rw [e2]; ring
      rw [this]
      omega
    · simp only [hrn, b2i, decide_true, if_true, decide_false, hl, if_false, Bool.false_eq_true]
      congr 1
      rw [Int.zero_mul, Int.add_zero, Int.one_mul, add_sub_cancel_left, Int.toNat_natCast]
  · have h0 : n / size = 0 := Nat.div_eq_of_lt (by omega)
    simp only [h, if_false, h0, if_true, Nat.zero_add, Nat.mul_one]
    by_cases hrn : rank < n
    · have hrn' : (rank : Int) ≤ (n : Int) - 1 := by omega
      simp only [hrn, hrn', b2i, decide_true, if_true]
      have : ((rank : Int) * ((1 : Nat) : Int) + 1 * (((1 : Nat) : Int) +
          (if decide ((rank : Int) = (n : Int) - 1) = true then 1 else 0) *
            (n - (rank + 1) * ((1 : Nat) : Int))) - rank * ((1 : Nat) : Int)).toNat = 1 := by
        split
        · rename_i hl
          simp only [decide_eq_true_eq] at hl
          push_cast
          rw [hl]
          ring_nf
          rfl
        · push_cast; ring_nf; rfl
      rw [this]
      rfl
    · have hrn' : ¬ ((rank : Int) ≤ (n : Int) - 1) := by omega
      simp [hrn, hrn', b2i]

/-- C52. Every file is read by exactly one process, and reading the results in order of the processes
restores the order of the files: for every number of files and processes. -/
theorem C52_partition (n size : Nat) (hs : 0 < size) :
    (List.range size).flatMap (filesOf n size) = List.range n := by
  have hmap : (List.range size).flatMap (filesOf n size) = (List.range size).flatMap fun rank =>
      if size ≤ n then List.range' (rank * (n / size))
        (if rank = size - 1 then n - rank * (n / size) else n / size)
      else if rank < n then [rank] else [] := by
    apply List.flatMap_congr
    intro rank hr
    exact filesOf_eq n size rank hs (List.mem_range.1 hr)
  rw [hmap]
  by_cases h : size ≤ n
  · simp only [h, if_true]
    -- the first `k` processes read the first `k * (n / size)` files
    have hk : ∀ k, k < size → (List.range k).flatMap (fun rank => List.range' (rank * (n / size))
        (if rank = size - 1 then n - rank * (n / size) else n / size)) = List.range (k * (n / size)) := by
      intro k
      induction k with
      | zero => simp
      | succ k ih =>
        intro hk
        rw [List.range_succ, List.flatMap_append, ih (by omega)]
        have : k ≠ size - 1 := by omega
        simp only [List.flatMap_cons, List.flatMap_nil, List.append_nil, this, if_false]
        rw [List.range_eq_range', List.range_eq_range', show (k + 1) * (n / size) = k * (n / size) + n / size by ring]
        rw [← List.range'_append_1]
        simp
    obtain ⟨k, rfl⟩ : ∃ k, size = k + 1 := ⟨size - 1, by omega⟩
    rw [List.range_succ, List.flatMap_append, hk k (by omega)]
    simp only [List.flatMap_cons, List.flatMap_nil, List.append_nil, Nat.add_sub_cancel, if_true]
    have hle : k * (n / (k + 1)) ≤ n := by
      calc k * (n / (k + 1)) ≤ (k + 1) * (n / (k + 1)) := Nat.mul_le_mul_right _ (by omega)
        _ ≤ n := Nat.mul_div_le n (k + 1)
    rw [List.range_eq_range', List.range_eq_range']
    have := @List.range'_append_1 0 (k * (n / (k + 1))) (n - k * (n / (k + 1)))
    rw [Nat.zero_add] at this
    rw [this]
    congr 1
    omega
  · simp only [h, if_false]
    have : size = n + (size - n) := by omega
    rw [this, List.range_add, List.flatMap_append]
    have h1 : (List.range n).flatMap (fun rank => if rank < n then [rank] else []) = List.range n := by
      have : (List.range n).flatMap (fun rank => if rank < n then [rank] else []) =
          (List.range n).flatMap fun rank => [rank] := by
        apply List.flatMap_congr
        intro r hr
        simp [List.mem_range.1 hr]
      rw [this]
      simp
    have h2 : ((List.range (size - n)).map (n + ·)).flatMap (fun rank => if rank < n then [rank] else []) = [] := by
      rw [List.flatMap_eq_nil_iff]
      intro r hr
      obtain ⟨j, -, rfl⟩ := List.mem_map.1 hr
      simp
    rw [h1, h2, List.append_nil]

example : (List.range 4).map (filesOf 11 4) = [[0, 1], [2, 3], [4, 5], [6, 7, 8, 9, 10]] := by decide
example : (List.range 4).map (filesOf 2 4) = [[0], [1], [], []] := by decide

/-! ## C53 -/

variable {α : Type}

/-- C53. Broadcasting in pieces delivers the whole array, for every length and piece limit. -/
theorem C53_broadcast (limit : Nat) (total : List α) : bcast limit total = total := by
  unfold bcast
  simp only
  generalize hn : total.length = n
  have hp : 0 < pieces limit n := by unfold pieces; exact Nat.add_pos_left Nat.one_pos _
  generalize pieces limit n = p at *
  have hle : p * (n / p) ≤ n := Nat.mul_div_le n p
  have hk : ∀ k, k < p → (List.range k).foldl (fun acc i => acc ++ slice (i * (n / p))
      ((i + 1) * (n / p) + (if i = p - 1 then n - p * (n / p) else 0)) total) [] =
      total.take (k * (n / p)) := by
    intro k
    induction k with
    | zero => simp
    | succ k ih =>
      intro hk
      rw [List.range_succ, List.foldl_append, ih (by omega)]
      have : k ≠ p - 1 := by omega
      simp only [List.foldl_cons, List.foldl_nil, this, if_false, Nat.add_zero, slice]
      rw [List.drop_take]
      have : (k + 1) * (n / p) - k * (n / p) = n / p := by
        rw [Nat.add_mul, Nat.one_mul, Nat.add_sub_cancel_left]
      rw [this, Nat.add_mul, Nat.one_mul, List.take_add]
  obtain ⟨k, rfl⟩ : ∃ k, p = k + 1 := ⟨p - 1, by omega⟩
  rw [List.range_succ, List.foldl_append, hk k (by omega)]
  simp only [List.foldl_cons, List.foldl_nil, Nat.add_sub_cancel, if_true, slice]
  rw [show (k + 1) * (n / (k + 1)) + (n - (k + 1) * (n / (k + 1))) = n by omega, ← hn, List.take_length,
    List.take_append_drop]

example : pieces 3 10 = 4 ∧ bcast 3 [0, 1, 2, 3, 4, 5, 6, 7, 8, 9] = [0, 1, 2, 3, 4, 5, 6, 7, 8, 9] := by decide

theorem writeAt_append (a : List (Option α)) (xs : List α) (b : List (Option α)) :
    writeAt (a ++ List.replicate xs.length none ++ b) a.length xs = a ++ xs.map some ++ b := by
  induction xs generalizing a with
  | nil => simp [writeAt]
  | cons x xs ih =>
    have hset : (a ++ List.replicate (x :: xs).length none ++ b).set a.length (some x) =
        (a ++ [some x]) ++ List.replicate xs.length none ++ b := by
      simp [List.replicate_succ]
    rw [writeAt, hset]
    have := ih (a ++ [some x])
    rw [List.length_append, List.length_singleton] at this
    rw [this]
    simp

/-- Gathering the local arrays gives their concatenation; nothing stays uninitialised. -/
theorem gatherv_eq (locals : List (List α)) : gatherv locals = locals.flatten.map some := by
  unfold gatherv
  simp only
  have hk : ∀ k, k ≤ locals.length → (List.range k).foldl
      (fun buf j => writeAt buf (((locals.map List.length).take j).sum) (locals.getD j []))
      (List.replicate (locals.map List.length).sum none) =
      (locals.take k).flatten.map some ++
        List.replicate ((locals.drop k).map List.length).sum none := by
    intro k
    induction k with
    | zero => simp
    | succ k ih =>
      intro hk
      rw [List.range_succ, List.foldl_append, ih (by omega)]
      simp only [List.foldl_cons, List.foldl_nil]
      have hlt : k < locals.length := hk
      have hd : locals.drop k = locals[k] :: locals.drop (k + 1) := List.drop_eq_getElem_cons hlt
      have hg : locals.getD k [] = locals[k] := by simp [List.getD, List.getElem?_eq_getElem hlt]
      rw [hd, hg]
      have hpos : ((locals.map List.length).take k).sum = ((locals.take k).flatten.map (some (α := α))).length := by
        rw [List.length_map, List.length_flatten, List.map_take]
      rw [hpos, List.map_cons, List.sum_cons, List.replicate_add, ← List.append_assoc, writeAt_append]
      rw [List.take_add_one, List.getElem?_eq_getElem hlt, List.flatten_append, List.map_append]
      simp only [Option.toList_some, List.flatten_cons, List.flatten_nil, List.append_nil]
  have := hk locals.length le_rfl
  rw [this]
  simp

/-! ## The whole catalogue -/

variable {K : Type} [Mul K]

/-- What should be returned: the columns of all groups and subhalos of all files in order. -/
def allGroups (files : List (File K)) : List (Group K) := files.flatMap fun f => f.groups.getD []
/-- The same for subhalos. -/
def allSubhalos (files : List (File K)) : List (Nat → Nat) := files.flatMap fun f => f.subhalos.getD []

theorem readFile_ok (f32 : K → K) (factor : K) (which : String) (hw : which = "Rvir" ∨ which = "R200")
    (ptype : Nat) (file : File K) (acc : Collected K) :
    readFile f32 factor which ptype file acc = .ok
      { nbShs := acc.nbShs ++ (allGroups [file]).map fun g => g.nSubs
        shLen := acc.shLen ++ (allSubhalos [file]).map fun s => s ptype
        fofSizes := acc.fofSizes ++ (allGroups [file]).map fun g => g.lenType ptype
        r200 := acc.r200 ++ (allGroups [file]).map fun g =>
          f32 ((if which = "Rvir" then g.rTopHat else g.rMean) * factor) } := by
  unfold readFile allGroups allSubhalos
  rcases file with ⟨_ | gs, _ | shs⟩ <;> simp [hw]

theorem readFiles_ok (f32 : K → K) (factor : K) (which : String) (hw : which = "Rvir" ∨ which = "R200")
    (ptype : Nat) (files : List (File K)) (acc : Collected K) :
    files.foldlM (fun acc file => readFile f32 factor which ptype file acc) acc = .ok
      { nbShs := acc.nbShs ++ (allGroups files).map fun g => g.nSubs
        shLen := acc.shLen ++ (allSubhalos files).map fun s => s ptype
        fofSizes := acc.fofSizes ++ (allGroups files).map fun g => g.lenType ptype
        r200 := acc.r200 ++ (allGroups files).map fun g =>
          f32 ((if which = "Rvir" then g.rTopHat else g.rMean) * factor) } := by
  induction files generalizing acc with
  | nil => simp [allGroups, allSubhalos, pure, Except.pure]
  | cons f fs ih =>
    rw [List.foldlM_cons, readFile_ok _ _ _ hw]
    simp only [bind, Except.bind]
    rw [ih]
    simp [allGroups, allSubhalos]

theorem mapM_ok {β : Type} (f : Nat → Except Err β) (g : Nat → β) (l : List Nat)
    (h : ∀ i ∈ l, f i = .ok (g i)) : l.mapM f = .ok (l.map g) := by
  induction l with
  | nil => rfl
  | cons a l ih =>
    rw [List.mapM_cons, h a List.mem_cons_self, ih fun i hi => h i (List.mem_cons_of_mem _ hi)]
    rfl

/-- C52. On every number of processes, every process obtains the complete catalogue in the order of the
files: numbers of subhalos, sizes of subhalos, sizes of groups and radii.  The radii are rounded to
single precision. -/
theorem C52_catalogue (f32 : K → K) (factor : K) (limit : Nat) (which : String)
    (hw : which = "Rvir" ∨ which = "R200") (ptype : Nat) (files : List (File K)) (hne : files ≠ [])
    (size : Nat) (hs : 0 < size) :
    readFoF f32 factor limit which ptype files size = .ok
      ((allGroups files).map fun g => some g.nSubs, (allSubhalos files).map fun s => some (s ptype),
       (allGroups files).map fun g => some (g.lenType ptype),
       (allGroups files).map fun g => some (f32 ((if which = "Rvir" then g.rTopHat else g.rMean) * factor))) := by
  unfold readFoF
  rw [if_neg (by simpa using hne)]
  have hpart := C52_partition files.length size hs
  have hfiles : (List.range size).flatMap (fun r => (filesOf files.length size r).filterMap fun i => files[i]?) =
      files := by
    have h1 : ∀ l : List Nat, (l.flatMap (fun r => (filesOf files.length size r).filterMap fun i => files[i]?)) =
        (l.flatMap (filesOf files.length size)).filterMap fun i => files[i]? := by
      intro l
      induction l with
      | nil => rfl
      | cons a l ih => simp only [List.flatMap_cons, List.filterMap_append, ih]
    rw [h1, hpart]
    clear hpart h1 hne
    induction files with
    | nil => rfl
    | cons f fs ih =>
      rw [List.length_cons, List.range_succ_eq_map, List.filterMap_cons]
      simp only [List.getElem?_cons_zero, List.filterMap_map]
      congr 1
  rw [mapM_ok (readLocal f32 factor which ptype files size) _ _
    fun i _ => readFiles_ok f32 factor which hw ptype _ _]
  simp only [Except.map, C53_broadcast, gatherv_eq, List.map_map]
  have hg : ∀ {β γ : Type} (sel : List (File K) → List β) (hsel : ∀ a b, sel (a ++ b) = sel a ++ sel b)
      (hnil : sel [] = []) (f : β → γ),
      (((List.range size).map fun r => (sel ((filesOf files.length size r).filterMap fun i => files[i]?)).map f).flatten).map some =
        (sel files).map fun b => some (f b) := by
    intro β γ sel hsel hnil f
    have : ∀ l : List Nat, ((l.map fun r => (sel ((filesOf files.length size r).filterMap fun i => files[i]?)).map f).flatten) =
        (sel (l.flatMap fun r => (filesOf files.length size r).filterMap fun i => files[i]?)).map f := by
      intro l
      induction l with
      | nil => simp [hnil]
      | cons a l ih => simp only [List.map_cons, List.flatten_cons, List.flatMap_cons, hsel, List.map_append, ih]
    rw [this, hfiles, List.map_map]
    rfl
  have g1 := hg (β := Group K) (γ := Nat) allGroups (fun a b => by simp [allGroups]) rfl
  have g2 := hg (β := Nat → Nat) (γ := Nat) (allSubhalos (K := K)) (fun a b => by simp [allSubhalos]) rfl
  have g3 := hg (β := Group K) (γ := K) allGroups (fun a b => by simp [allGroups]) rfl
  congr 1
  refine Prod.ext ?_ (Prod.ext ?_ (Prod.ext ?_ ?_))
  · simpa [Function.comp_def] using g1 _
  · simpa [Function.comp_def] using g2 _
  · simpa [Function.comp_def] using g1 _
  · simpa [Function.comp_def] using g3 _

example : readFoF (K := Int) id 1 1 "R200" 1
    [⟨some [⟨fun _ => 7, 0, 5, 2⟩], some [fun _ => 3, fun _ => 4]⟩, ⟨none, none⟩, ⟨some [⟨fun _ => 9, 0, 6, 0⟩], none⟩] 2 =
    .ok ([some 2, some 0], [some 3, some 4], [some 7, some 9], [some 5, some 6]) := by
  rw [C52_catalogue _ _ _ _ (Or.inr rfl) _ _ (by simp) 2 (by omega)]
  rfl

/-! ## C59 -/

/-- C59 is false: after a change of the unit system, radii read before are returned in the old units. -/
theorem C59_stale_units_refuted [Div K] (raw : String → String → Nat → List K) (internal : K)
    (s : Session K) (dest which : String) (ptype : Nat) (u : K) :
    let s1 := (s.step raw internal (.read dest which ptype))
    let s2 := (s1.1.step raw internal (.setUnit u))
    let s3 := (s2.1.step raw internal (.read dest which ptype))
    s3.2 = s1.2 := by
  simp only [Session.step]
  cases h : s.cache.find? fun kv => kv.1 = (dest, which, ptype) with
  | some kv => simp [h]
  | none => simp

/-- The results of a sequence of operations. -/
def run [Div K] (raw : String → String → Nat → List K) (internal : K) : Session K → List (Op K) → List (Option (List K))
  | _, [] => []
  | s, op :: ops => (s.step raw internal op).2 :: run raw internal (s.step raw internal op).1 ops

/-- C59, the part which holds: as long as the units are not changed after the first read, all reads
return the radii in the current units. -/
theorem C59_fixed_units_partial [Div K] (raw : String → String → Nat → List K) (internal u : K)
    (ops : List (Op K)) (hops : ∀ op ∈ ops, ∃ dest which ptype, op = .read dest which ptype) :
    run raw internal ⟨u, []⟩ ops = ops.map fun op => match op with
      | .setUnit _ => none
      | .read dest which ptype => some ((raw dest which ptype).map fun x => x * (u / internal)) := by
  have key : ∀ (ops : List (Op K)) (s : Session K), s.unit = u →
      (∀ kv ∈ s.cache, kv.2 = (raw kv.1.1 kv.1.2.1 kv.1.2.2).map fun x => x * (u / internal)) →
      (∀ op ∈ ops, ∃ dest which ptype, op = Op.read dest which ptype) →
      run raw internal s ops = ops.map fun op => match op with
        | .setUnit _ => none
        | .read dest which ptype => some ((raw dest which ptype).map fun x => x * (u / internal)) := by
    intro ops
    induction ops with
    | nil => intros; rfl
    | cons op ops ih =>
      intro s hu hc hop
      obtain ⟨dest, which, ptype, rfl⟩ := hop op List.mem_cons_self
      have hrest := fun op h => hop op (List.mem_cons_of_mem _ h)
      simp only [run, List.map_cons]
      cases h : s.cache.find? fun kv => kv.1 = (dest, which, ptype) with
      | some kv =>
        have hk := List.find?_some h
        simp only [decide_eq_true_eq] at hk
        have hv := hc kv (List.mem_of_find?_eq_some h)
        simp only [Session.step, h]
        rw [ih s hu hc hrest, hv, hk]
      | none =>
        simp only [Session.step, h]
        rw [ih]
        · rw [hu]
        · exact hu
        · intro kv hkv
          rcases List.mem_cons.1 hkv with rfl | hkv
          · simp [hu]
          · exact hc kv hkv
        · exact hrest
  exact key ops ⟨u, []⟩ rfl (by simp) hops

/-- The input unit of length after some operations. -/
def unitAfter (u : K) : List (Op K) → K
  | [] => u
  | .setUnit v :: ops => unitAfter v ops
  | .read _ _ _ :: ops => unitAfter u ops

/-- C59, exactly what holds in every history of changes of units and reads: a read returns the radii converted with the unit which was
current at the *first* read with the same arguments. -/
theorem C59_first_read_partial [Div K] (raw : String → String → Nat → List K) (internal u : K) (ops : List (Op K))
    (k : Nat) (dest which : String) (ptype : Nat) (hk : ops[k]? = some (.read dest which ptype)) :
    ∃ j ≤ k, ops[j]? = some (.read dest which ptype) ∧ (∀ i < j, ops[i]? ≠ some (.read dest which ptype)) ∧
      (run raw internal ⟨u, []⟩ ops)[k]? =
        some (some ((raw dest which ptype).map fun x => x * (unitAfter u (ops.take j) / internal))) := by
  have key : ∀ (ops : List (Op K)) (s : Session K) (k : Nat), ops[k]? = some (.read dest which ptype) →
      (∀ kv, (s.cache.find? fun kv => kv.1 = (dest, which, ptype)) = some kv →
        (run raw internal s ops)[k]? = some (some kv.2)) ∧
      ((s.cache.find? fun kv => kv.1 = (dest, which, ptype)) = none →
        ∃ j ≤ k, ops[j]? = some (.read dest which ptype) ∧ (∀ i < j, ops[i]? ≠ some (.read dest which ptype)) ∧
          (run raw internal s ops)[k]? =
            some (some ((raw dest which ptype).map fun x => x * (unitAfter s.unit (ops.take j) / internal)))) := by
    intro ops
    induction ops with
    | nil => intro s k hk; simp at hk
    | cons op ops ih =>
      intro s k hk
      match k, hk with
      | 0, hk =>
        obtain rfl : op = .read dest which ptype := by simpa using hk
        refine ⟨fun kv h => ?_, fun h => ⟨0, le_rfl, rfl, by simp, ?_⟩⟩
        · simp [run, Session.step, h]
        · simp [run, Session.step, h, unitAfter]
      | k + 1, hk =>
        have hk' : ops[k]? = some (.read dest which ptype) := by simpa using hk
        simp only [run, List.getElem?_cons_succ]
        have hi := ih (s.step raw internal op).1 k hk'
        cases op with
        | setUnit v =>
          refine ⟨hi.1, fun h => ?_⟩
          obtain ⟨j, hj, h1, h2, h3⟩ := hi.2 h
          refine ⟨j + 1, by omega, by simpa using h1, ?_, h3⟩
          intro i hlt
          match i with
          | 0 => simp
          | i + 1 => simpa using h2 i (by omega)
        | read d w p =>
          by_cases hsame : (d, w, p) = (dest, which, ptype)
          · obtain ⟨rfl, rfl, rfl⟩ := by simpa using hsame
            refine ⟨fun kv h => ?_, fun h => ⟨0, by omega, rfl, by simp, ?_⟩⟩
            · simp only [Session.step, h] at hi ⊢
              exact hi.1 kv rfl
            · simp only [Session.step, h] at hi ⊢
              exact hi.1 _ (List.find?_cons_of_pos (by simp))
          · have hf : ((s.step raw internal (.read d w p)).1.cache.find? fun kv => kv.1 = (dest, which, ptype)) =
                s.cache.find? fun kv => kv.1 = (dest, which, ptype) := by
              unfold Session.step
              dsimp only
              split
              · rfl
              · exact List.find?_cons_of_neg (by simpa using hsame)
            have hu : (s.step raw internal (.read d w p)).1.unit = s.unit := by
              unfold Session.step
              dsimp only
              split <;> rfl
            rw [hf, hu] at hi
            refine ⟨hi.1, fun h => ?_⟩
            obtain ⟨j, hj, h1, h2, h3⟩ := hi.2 h
            refine ⟨j + 1, by omega, by simpa using h1, ?_, h3⟩
            intro i hlt
            match i with
            | 0 => simpa using hsame
            | i + 1 => simpa using h2 i (by omega)
  exact (key ops ⟨u, []⟩ k hk).2 rfl

/-- C59: kpc/h first, then Mpc/h: the second read gives the radius of the first. -/
example : run (K := ℚ) (fun _ _ _ => [200]) 1000 ⟨1, []⟩
    [.read "fof" "R200" 1, .setUnit 1000, .read "fof" "R200" 1] =
      [some [1 / 5], none, some [1 / 5]] := by
  norm_num [run, Session.step]

end Verif.Gadget
