import Verif.Stats.Model

/-! # Lemmas about blocks and mass splitting -/

namespace Verif.Stats

/-- Blocks of size `n > 0`. -/
def blocks {α : Type} (lst : List α) (n : Nat) : List (List α) :=
  (List.range (rangeCount lst.length n)).map fun i => (lst.drop (i * n)).take n

theorem getBlocks_pos {α : Type} (lst : List α) (n : Nat) (hn : 0 < n) :
    getBlocks lst (n : Int) = some (blocks lst n) := by
  unfold getBlocks blocks
  rw [if_neg (by omega), if_neg (by omega)]
  simp

theorem le_rangeCount_mul (len n : Nat) (hn : 0 < n) : len ≤ rangeCount len n * n := by
  unfold rangeCount
  have := Nat.lt_div_mul_add hn (a := len + n - 1)
  omega

theorem lt_rangeCount (len n i : Nat) (hn : 0 < n) : i < rangeCount len n ↔ i * n < len := by
  unfold rangeCount
  rw [Nat.lt_iff_add_one_le, Nat.le_div_iff_mul_le hn, Nat.succ_mul]
  omega

theorem blocks_prefix {α : Type} (lst : List α) (n k : Nat) :
    ((List.range k).map fun i => (lst.drop (i * n)).take n).flatten = lst.take (k * n) := by
  induction k with
  | zero => simp
  | succ k ih =>
    rw [List.range_succ, List.map_append, List.flatten_append, ih, Nat.succ_mul, List.take_add]
    simp

theorem blocks_flatten {α : Type} (lst : List α) (n : Nat) (hn : 0 < n) :
    (blocks lst n).flatten = lst := by
  unfold blocks
  rw [blocks_prefix, List.take_of_length_le (le_rangeCount_mul _ _ hn)]

theorem blocks_length {α : Type} (lst : List α) (n : Nat) :
    (blocks lst n).length = rangeCount lst.length n := by simp [blocks]

theorem blocks_getElem? {α : Type} (lst : List α) (n i : Nat) (hi : i < rangeCount lst.length n) :
    (blocks lst n)[i]? = some ((lst.drop (i * n)).take n) := by
  unfold blocks
  rw [List.getElem?_map, List.getElem?_range hi]
  rfl

/-- Lengths of the first `j` blocks. -/
theorem blocks_start {α : Type} (lst : List α) (n j : Nat) (hn : 0 < n)
    (hj : j < rangeCount lst.length n) : (((blocks lst n).take j).map List.length).sum = j * n := by
  have h1 : (blocks lst n).take j = (List.range j).map fun i => (lst.drop (i * n)).take n := by
    unfold blocks
    rw [← List.map_take, List.take_range, Nat.min_eq_left hj.le]
  rw [← List.length_flatten, h1, blocks_prefix, List.length_take]
  have := (lt_rangeCount _ _ _ hn).1 hj
  omega

theorem map_blocks {α β : Type} (f : α → β) (lst : List α) (n : Nat) :
    (blocks lst n).map (List.map f) = blocks (lst.map f) n := by
  unfold blocks
  rw [List.map_map, List.length_map]
  apply List.map_congr_left
  intro i _
  simp [List.map_take, List.map_drop]

theorem range_filterMap_getElem? {α : Type} (l : List α) (start n : Nat) :
    (List.range n).filterMap (fun i => l[start + i]?) = (l.drop start).take n := by
  induction n with
  | zero => simp
  | succ n ih =>
    rw [List.range_succ, List.filterMap_append, ih, List.take_add_one, List.getElem?_drop]
    congr 1

/-- Indices of the groups are the blocks of `args`. -/
theorem idx_eq_blocks {K : Type} (args : List Nat) (mo : List K) (c : Nat) (hc : 0 < c)
    (hl : mo.length = args.length) :
    ((List.range (blocks mo c).length).map fun j =>
      (List.range (((blocks mo c)[j]?.map List.length).getD 0)).filterMap fun i =>
        args[(((blocks mo c).take j).map List.length).sum + i]?) = blocks args c := by
  unfold blocks
  rw [List.length_map, List.length_range, ← hl]
  apply List.map_congr_left
  intro j hj
  rw [List.mem_range] at hj
  have h1 := blocks_start mo c j hc hj
  have h2 := blocks_getElem? mo c j hj
  unfold blocks at h1 h2
  rw [h1, h2]
  simp only [Option.map_some, Option.getD_some]
  rw [range_filterMap_getElem?, List.length_take, List.length_drop, hl, ← List.length_drop,
    ← List.take_eq_take_min]

theorem filterMap_full {α : Type} (m : List α) (args : List Nat) (h : ∀ i ∈ args, i < m.length) :
    (args.filterMap fun i => m[i]?).map some = args.map fun i => m[i]? := by
  induction args with
  | nil => rfl
  | cons a l ih =>
    have ha := h a (by simp)
    rw [List.filterMap_cons, List.getElem?_eq_getElem ha]
    simp only [List.map_cons]
    rw [ih fun i hi => h i (by simp [hi]), List.getElem?_eq_getElem ha]

theorem filterMap_full_length {α : Type} (m : List α) (args : List Nat)
    (h : ∀ i ∈ args, i < m.length) : (args.filterMap fun i => m[i]?).length = args.length := by
  have := congrArg List.length (filterMap_full m args h)
  simpa using this

theorem chunkSize_eq (n k : Nat) (hk : 0 < k) : chunkSize n (k : Int) = (rangeCount n k : Nat) := by
  unfold chunkSize rangeCount
  rw [Int.fmod_eq_emod_of_nonneg _ (by omega), Int.fdiv_eq_ediv_of_nonneg _ (by omega)]
  have hk0 : (k : Int) ≠ 0 := by omega
  have e1 : ((n : Int) % k) = ((n % k : Nat) : Int) := by push_cast; rfl
  have e2 : ((n : Int) / k) = ((n / k : Nat) : Int) := by push_cast; rfl
  rw [e1, e2]
  have hdm := Nat.div_add_mod n k
  have hlt := Nat.mod_lt n hk
  split
  · rename_i h
    have h : n % k = 0 := by exact_mod_cast h
    congr 1
    symm
    rw [Nat.div_eq_iff hk]
    rw [h, add_zero] at hdm
    have : k * (n / k) = n / k * k := Nat.mul_comm _ _
    omega
  · rename_i h
    have h : n % k ≠ 0 := by exact_mod_cast h
    have : (n + k - 1) / k = n / k + 1 := by
      rw [Nat.div_eq_iff hk, Nat.succ_mul]
      have : k * (n / k) = n / k * k := Nat.mul_comm _ _
      omega
    rw [this]
    push_cast
    rfl

theorem rangeCount_le (n k : Nat) (hk : 0 < k) (hn : 0 < rangeCount n k) :
    rangeCount n (rangeCount n k) ≤ k := by
  by_contra hlt
  push Not at hlt
  have h1 := (lt_rangeCount n (rangeCount n k) k hn).1 hlt
  have h2 := le_rangeCount_mul n k hk
  rw [Nat.mul_comm] at h2
  omega

theorem rangeCount_eq_zero (n k : Nat) (hk : 0 < k) : rangeCount n k = 0 ↔ n = 0 := by
  constructor
  · intro h
    by_contra hn
    have : 0 < rangeCount n k := (lt_rangeCount n k 0 hk).2 (by omega)
    omega
  · intro h
    by_contra hn
    have := (lt_rangeCount n k 0 hk).1 (by omega)
    omega

theorem mapM_some {α β : Type} (f : α → Option β) (g : α → β) (l : List α)
    (h : ∀ a ∈ l, f a = some (g a)) : l.mapM f = some (l.map g) := by
  induction l with
  | nil => rfl
  | cons a l ih =>
    rw [List.mapM_cons, h a (by simp), ih fun b hb => h b (by simp [hb])]
    rfl

/-- The result for at least one object and at least one bin. -/
theorem mSplit_eq {K C : Type} (args : List Nat) (m : List K) (center : List C) (k : Nat) (hk : 0 < k)
    (hp : args.Perm (List.range m.length)) (hm : m ≠ []) :
    ∃ edges, mSplit args m center (k : Int) = some ⟨edges,
      blocks (args.filterMap fun i => m[i]?) (rangeCount m.length k),
      blocks (args.filterMap fun i => center[i]?) (rangeCount m.length k),
      blocks args (rangeCount m.length k)⟩ ∧
      edges.length = rangeCount m.length (rangeCount m.length k) + 1 ∧
      (∀ g, g < rangeCount m.length (rangeCount m.length k) →
        edges[g]? = (args.filterMap fun i => m[i]?)[g * rangeCount m.length k]?) ∧
      edges[rangeCount m.length (rangeCount m.length k)]? =
        (args.filterMap fun i => m[i]?).getLast? := by
  have hmlen : 0 < m.length := List.length_pos_iff.2 hm
  have hc : 0 < rangeCount m.length k := (lt_rangeCount _ _ _ hk).2 (by omega)
  set c := rangeCount m.length k with hcdef
  set mo := args.filterMap fun i => m[i]? with hmo
  have hargs : ∀ i ∈ args, i < m.length := fun i hi => List.mem_range.1 (hp.subset hi)
  have hmol : mo.length = args.length := filterMap_full_length m args hargs
  have hal : args.length = m.length := by rw [hp.length_eq, List.length_range]
  have hmone : mo ≠ [] := by
    intro h; rw [h] at hmol; simp at hmol; omega
  have hG : rangeCount mo.length c = rangeCount m.length c := by rw [hmol, hal]
  let f : Nat → K := fun i => if i = rangeCount m.length c then mo.getLast hmone else
    (mo[i * c]?).getD (mo.getLast hmone)
  refine ⟨(List.range (rangeCount m.length c + 1)).map f, ?_, by simp, ?_, ?_⟩
  · unfold mSplit
    rw [if_neg (by omega)]
    simp only
    rw [chunkSize_eq _ _ hk, ← hcdef, if_neg (by omega), ← hmo, getBlocks_pos _ _ hc,
      getBlocks_pos _ _ hc]
    simp only [Option.bind_some]
    rw [blocks_length, hG, mapM_some _ f]
    · simp only [Option.bind_some]
      have := idx_eq_blocks args mo c hc hmol
      rw [blocks_length, hG] at this
      rw [this]
    · intro i hi
      rw [List.mem_range] at hi
      simp only [f]
      split
      · rw [List.getLast?_eq_getLast_of_ne_nil hmone]
      · rename_i hne
        have : i < rangeCount m.length c := by omega
        rw [lt_rangeCount _ _ _ hc] at this
        simp only [Int.toNat_natCast]
        rw [List.getElem?_eq_getElem (by omega)]
        rfl
  · intro g hg
    rw [List.getElem?_map, List.getElem?_range (by omega)]
    simp only [Option.map_some, f]
    rw [if_neg (by omega)]
    rw [lt_rangeCount _ _ _ hc] at hg
    rw [List.getElem?_eq_getElem (by omega)]
    rfl
  · rw [List.getElem?_map, List.getElem?_range (by omega)]
    simp only [Option.map_some, f, if_true]
    rw [List.getLast?_eq_getLast_of_ne_nil hmone]

end Verif.Stats
