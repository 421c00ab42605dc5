import Verif.Stats.SplitLemmas

/-!
# Mass bins (C45, C46) and blocks (C47)
-/

namespace Verif.Stats

/-! ## C47 -/

/-- C47. Blocks of size `n > 0` reproduce the list when put together; none is empty; all but the last
have exactly `n` elements and the last at most `n`. Size 0 is an error. -/
theorem C47_blocks {α : Type} (lst : List α) :
    getBlocks lst 0 = none ∧
    ∀ n : Nat, 0 < n → ∃ bs, getBlocks lst (n : Int) = some bs ∧ bs.flatten = lst ∧
      (∀ b ∈ bs, b ≠ [] ∧ b.length ≤ n) ∧
      (∀ i b, i + 1 < bs.length → bs[i]? = some b → b.length = n) := by
  refine ⟨by simp [getBlocks], fun n hn => ⟨_, getBlocks_pos lst n hn, blocks_flatten lst n hn, ?_, ?_⟩⟩
  · intro b hb
    obtain ⟨i, hi, rfl⟩ := List.mem_iff_getElem.1 hb
    rw [blocks_length] at hi
    have hbi := blocks_getElem? lst n i hi
    rw [List.getElem?_eq_getElem (by rw [blocks_length]; exact hi)] at hbi
    rw [Option.some.inj hbi]
    have := (lt_rangeCount _ _ _ hn).1 hi
    constructor
    · intro h
      have hl := congrArg List.length h
      simp only [List.length_take, List.length_drop, List.length_nil] at hl
      omega
    · simp only [List.length_take]; omega
  · intro i b hi hb
    rw [blocks_length] at hi
    rw [blocks_getElem? lst n i (by omega)] at hb
    have := (lt_rangeCount _ _ _ hn).1 hi
    rw [← Option.some.inj hb, List.length_take, List.length_drop]
    rw [Nat.succ_mul] at this
    omega

example : getBlocks [1, 2, 3, 4, 5] 2 = some [[1, 2], [3, 4], [5]] := by decide

/-- Negative sizes are not rejected: all values are silently lost. -/
theorem C47_negative_size_refuted {α : Type} (lst : List α) (n : Int) (hn : n < 0) :
    getBlocks lst n = some [] := by
  unfold getBlocks; rw [if_neg (by omega), if_pos hn]

/-! ## C45 -/

variable {K : Type} [LinearOrder K]

/-- C45. For every number of bins `nb ≥ 1` (and every order in which `np.argsort` may put equal
masses) the splitting succeeds; the bins partition the objects: each object is in exactly one bin, no
bin is empty, there are at most `nb` bins; masses in earlier bins do not exceed masses in later bins;
the listed masses and centers are those of the objects of the bin. -/
theorem C45_ordered_partition {C : Type} (args : List Nat) (m : List K) (center : List C)
    (hl : center.length = m.length) (ha : IsArgsort args m) (nb : Nat) (hnb : 0 < nb) :
    ∃ sp, mSplit args m center (nb : Int) = some sp ∧
      sp.idxGroups.flatten.Perm (List.range m.length) ∧
      (∀ g ∈ sp.idxGroups, g ≠ []) ∧
      sp.idxGroups.length ≤ nb ∧
      sp.idxGroups.Pairwise (fun g g' => ∀ i ∈ g, ∀ j ∈ g', ∀ x y, m[i]? = some x → m[j]? = some y →
        x ≤ y) ∧
      sp.mGroups.map (List.map some) = sp.idxGroups.map (List.map fun i => m[i]?) ∧
      sp.centerGroups.map (List.map some) = sp.idxGroups.map (List.map fun i => center[i]?) := by
  obtain ⟨hp, hsort⟩ := ha
  by_cases hm : m = []
  · subst hm
    have hargs : args = [] := by simpa using hp
    subst hargs
    refine ⟨⟨[], [], [], []⟩, ?_, by simp, by simp, by simp, by simp, by simp, by simp⟩
    unfold mSplit
    rw [if_neg (by omega)]
    simp only
    rw [chunkSize_eq _ _ hnb, (rangeCount_eq_zero _ _ hnb).2 (by simp)]
    rfl
  · obtain ⟨edges, heq, -, -, -⟩ := mSplit_eq args m center nb hnb hp hm
    have hmlen : 0 < m.length := List.length_pos_iff.2 hm
    have hc : 0 < rangeCount m.length nb := (lt_rangeCount _ _ _ hnb).2 (by omega)
    have hargs : ∀ i ∈ args, i < m.length := fun i hi => List.mem_range.1 (hp.subset hi)
    have hal : args.length = m.length := by rw [hp.length_eq, List.length_range]
    refine ⟨_, heq, ?_, ?_, ?_, ?_, ?_, ?_⟩
    · simp only [blocks_flatten _ _ hc]; exact hp
    · intro g hg
      obtain ⟨bs, h1, h2, h3, -⟩ := (C47_blocks args).2 _ hc
      rw [getBlocks_pos _ _ hc] at h1
      rw [Option.some.inj h1] at hg
      exact (h3 g hg).1
    · simp only [blocks_length, hal]
      exact rangeCount_le _ _ hnb hc
    · have hpw : args.Pairwise fun i j => ∀ x y, m[i]? = some x → m[j]? = some y → x ≤ y := by
        rw [List.pairwise_filterMap] at hsort
        refine hsort.imp ?_
        intro i j h x y hx hy
        exact h x hx y hy
      have hfl : (blocks args (rangeCount m.length nb)).flatten.Pairwise
          fun i j => ∀ x y, m[i]? = some x → m[j]? = some y → x ≤ y := by
        rw [blocks_flatten _ _ hc]; exact hpw
      exact (List.pairwise_flatten.1 hfl).2
    · simp only
      rw [map_blocks, map_blocks, filterMap_full m args hargs]
    · simp only
      rw [map_blocks, map_blocks, filterMap_full center args (by rw [hl]; exact hargs)]

/-- Five objects in two bins. -/
example : mSplit [3, 0, 2, 1, 4] [20, 40, 30, 10, 50] ["a", "b", "c", "d", "e"] 2 =
    some ⟨[10, 40, 50], [[10, 20, 30], [40, 50]], [["d", "a", "c"], ["b", "e"]],
      [[3, 0, 2], [1, 4]]⟩ ∧ IsArgsort [3, 0, 2, 1, 4] [20, 40, 30, 10, 50] := by
  refine ⟨by decide, ?_, by decide⟩
  decide

/-- Sorted lists: elements at smaller positions are smaller. -/
theorem pairwise_getElem? {l : List K} (h : l.Pairwise (· ≤ ·)) {i j : Nat} {x y : K} (hij : i ≤ j)
    (hx : l[i]? = some x) (hy : l[j]? = some y) : x ≤ y := by
  rcases Nat.lt_or_eq_of_le hij with hlt | rfl
  · obtain ⟨hi, rfl⟩ := List.getElem?_eq_some_iff.1 hx
    obtain ⟨hj, rfl⟩ := List.getElem?_eq_some_iff.1 hy
    exact List.pairwise_iff_getElem.1 h i j hi hj hlt
  · rw [hx] at hy; exact (Option.some.inj hy).le

/-- Facts about the edges. -/
theorem edges_facts {C : Type} (args : List Nat) (m : List K) (center : List C) (ha : IsArgsort args m)
    (hm : m ≠ []) (nb : Nat) (hnb : 0 < nb) (sp : Split K C)
    (h : mSplit args m center (nb : Int) = some sp) :
    sp.edges.length = sp.mGroups.length + 1 ∧
    sp.edges.Pairwise (· ≤ ·) ∧
    (∀ x ∈ m, (∀ e, sp.edges[0]? = some e → e ≤ x) ∧
      (∀ e, sp.edges.getLast? = some e → x ≤ e)) ∧
    (∀ e ∈ sp.edges, e ∈ m) ∧
    (∀ g ms lo hi, sp.mGroups[g]? = some ms → sp.edges[g]? = some lo → sp.edges[g + 1]? = some hi →
      ∀ x ∈ ms, lo ≤ x ∧ x ≤ hi) := by
  obtain ⟨hp, hsort⟩ := ha
  obtain ⟨edges, heq, hlen, hE, hlast⟩ := mSplit_eq args m center nb hnb hp hm
  rw [heq] at h
  obtain rfl := Option.some.inj h
  have hmlen : 0 < m.length := List.length_pos_iff.2 hm
  have hc : 0 < rangeCount m.length nb := (lt_rangeCount _ _ _ hnb).2 (by omega)
  set c := rangeCount m.length nb with hcdef
  set mo := args.filterMap fun i => m[i]? with hmo
  have hargs : ∀ i ∈ args, i < m.length := fun i hi => List.mem_range.1 (hp.subset hi)
  have hal : args.length = m.length := by rw [hp.length_eq, List.length_range]
  have hmol : mo.length = m.length := (filterMap_full_length m args hargs).trans hal
  have hmem : ∀ x, x ∈ m ↔ x ∈ mo := by
    intro x
    rw [hmo, List.mem_filterMap]
    constructor
    · intro hx
      obtain ⟨i, hi, rfl⟩ := List.mem_iff_getElem.1 hx
      exact ⟨i, hp.symm.subset (List.mem_range.2 hi), List.getElem?_eq_getElem hi⟩
    · rintro ⟨i, -, hx⟩
      exact List.mem_of_getElem? hx
  have hG : 0 < rangeCount m.length c := (lt_rangeCount _ _ _ hc).2 (by omega)
  -- every edge is an element at a known place
  have hplace : ∀ g, g ≤ rangeCount m.length c → ∃ k, k < mo.length ∧ edges[g]? = mo[k]? ∧
      (g < rangeCount m.length c → k = g * c) ∧ (g = rangeCount m.length c → k = mo.length - 1) := by
    intro g hg
    rcases Nat.lt_or_eq_of_le hg with hlt | rfl
    · refine ⟨g * c, ?_, hE g hlt, fun _ => rfl, fun h => by omega⟩
      rw [hmol]; exact (lt_rangeCount _ _ _ hc).1 hlt
    · refine ⟨mo.length - 1, by omega, ?_, fun h => by omega, fun _ => rfl⟩
      rw [hlast, List.getLast?_eq_getElem?]
  have hmono : ∀ (g g' : Nat) (lo hi : K), g ≤ g' → edges[g]? = some lo → edges[g']? = some hi → lo ≤ hi := by
    intro g g' lo hi hgg hlo hhi
    have hg' : g' ≤ rangeCount m.length c := by
      have := (List.getElem?_eq_some_iff.1 hhi).1; omega
    obtain ⟨k, hk, e1, e2, e3⟩ := hplace g (by omega)
    obtain ⟨k', hk', e1', e2', e3'⟩ := hplace g' hg'
    rw [e1] at hlo
    rw [e1'] at hhi
    refine pairwise_getElem? hsort ?_ hlo hhi
    rcases Nat.lt_or_eq_of_le hg' with hlt | heq
    · rw [e2 (by omega), e2' hlt]; exact Nat.mul_le_mul_right _ hgg
    · rw [e3' heq]; omega
  refine ⟨by rw [hlen]; simp only [blocks_length, hmol], ?_, ?_, ?_, ?_⟩
  · rw [List.pairwise_iff_getElem]
    intro i j hi hj hij
    exact hmono i j _ _ hij.le (List.getElem?_eq_getElem hi) (List.getElem?_eq_getElem hj)
  · intro x hx
    obtain ⟨k, hk, rfl⟩ := List.mem_iff_getElem.1 ((hmem x).1 hx)
    constructor
    · intro e he
      simp only [hE 0 hG, Nat.zero_mul] at he
      exact pairwise_getElem? hsort (Nat.zero_le k) he (List.getElem?_eq_getElem hk)
    · intro e he
      simp only [List.getLast?_eq_getElem?, hlen, Nat.add_sub_cancel] at he
      rw [hlast, List.getLast?_eq_getElem?] at he
      exact pairwise_getElem? hsort (by omega) (List.getElem?_eq_getElem hk) he
  · intro e he
    obtain ⟨g, hg, rfl⟩ := List.mem_iff_getElem.1 he
    obtain ⟨k, hk, e1, -, -⟩ := hplace g (by simp only [hlen] at hg; omega)
    rw [List.getElem?_eq_getElem hg, List.getElem?_eq_getElem hk] at e1
    rw [hmem, Option.some.inj e1]
    exact List.getElem_mem hk
  · intro g ms lo hi hms hlo hhi x hx
    have hg : g < rangeCount m.length c := by
      have := (List.getElem?_eq_some_iff.1 hms).1
      rw [blocks_length, hmol] at this
      exact this
    rw [blocks_getElem? _ _ _ (by rw [hmol]; exact hg)] at hms
    obtain rfl := Option.some.inj hms
    obtain ⟨t, hxt⟩ := List.mem_iff_getElem?.1 hx
    have ht := (List.getElem?_eq_some_iff.1 hxt).1
    rw [List.getElem?_take_of_lt (by simp only [List.length_take] at ht; omega), List.getElem?_drop] at hxt
    have htc : t < c := by simp only [List.length_take] at ht; omega
    have hxk := (List.getElem?_eq_some_iff.1 hxt).1
    constructor
    · rw [hE g hg] at hlo
      exact pairwise_getElem? hsort (by omega) hlo hxt
    · obtain ⟨k, hk, e1, e2, e3⟩ := hplace (g + 1) (by omega)
      rw [e1] at hhi
      refine pairwise_getElem? hsort ?_ hxt hhi
      rcases Nat.lt_or_eq_of_le (show g + 1 ≤ rangeCount m.length c by omega) with hlt | heq
      · rw [e2 hlt, Nat.succ_mul]; omega
      · rw [e3 heq]; omega

/-- C45. There is one more edge than bins, the edges increase, they are masses of objects, and the masses
in each bin lie between the edges of the bin. -/
theorem C45_edges {C : Type} (args : List Nat) (m : List K) (center : List C) (ha : IsArgsort args m)
    (hm : m ≠ []) (nb : Nat) (hnb : 0 < nb) (sp : Split K C)
    (h : mSplit args m center (nb : Int) = some sp) :
    sp.edges.length = sp.mGroups.length + 1 ∧ sp.edges.Pairwise (· ≤ ·) ∧ (∀ e ∈ sp.edges, e ∈ m) ∧
    (∀ g ms lo hi, sp.mGroups[g]? = some ms → sp.edges[g]? = some lo → sp.edges[g + 1]? = some hi →
      ∀ x ∈ ms, lo ≤ x ∧ x ≤ hi) := by
  obtain ⟨h1, h2, -, h4, h5⟩ := edges_facts args m center ha hm nb hnb sp h
  exact ⟨h1, h2, h4, h5⟩

/-! ## C46 -/

/-- C46 is false: an object whose mass is one of the bin edges enters no mass-decomposed density plot. -/
theorem C46_edge_objects_dropped_refuted {C : Type} (args : List Nat) (m : List K) (center : List C)
    (ha : IsArgsort args m) (hm : m ≠ []) (nb : Nat) (hnb : 0 < nb) (sp : Split K C)
    (h : mSplit args m center (nb : Int) = some sp) (x : K) (hx : x ∈ sp.edges) (g : Nat) :
    ¬ passes sp.edges g x := by
  obtain ⟨-, hs, -⟩ := edges_facts args m center ha hm nb hnb sp h
  rintro ⟨lo, hi, hlo, hhi, h1, h2⟩
  obtain ⟨k, hk, rfl⟩ := List.mem_iff_getElem.1 hx
  rcases Nat.lt_or_ge g k with hgk | hgk
  · exact absurd (pairwise_getElem? hs hgk hhi (List.getElem?_eq_getElem hk)) (not_le.2 h2)
  · exact absurd (pairwise_getElem? hs hgk (List.getElem?_eq_getElem hk) hlo) (not_le.2 h1)

/-- C46 is false for every catalogue: the least massive object enters no plot. -/
theorem C46_lightest_dropped_refuted {C : Type} (args : List Nat) (m : List K) (center : List C)
    (ha : IsArgsort args m) (hm : m ≠ []) (nb : Nat) (hnb : 0 < nb) (sp : Split K C)
    (h : mSplit args m center (nb : Int) = some sp) :
    ∃ x ∈ m, (∀ y ∈ m, x ≤ y) ∧ ∀ g, ¬ passes sp.edges g x := by
  obtain ⟨h1, hs, h3, h4, -⟩ := edges_facts args m center ha hm nb hnb sp h
  have h0 : 0 < sp.edges.length := by omega
  have hmem : sp.edges[0] ∈ sp.edges := List.getElem_mem h0
  exact ⟨sp.edges[0], h4 _ hmem, fun y hy => (h3 y hy).1 _ (List.getElem?_eq_getElem h0),
    fun g => C46_edge_objects_dropped_refuted args m center ha hm nb hnb sp h _ hmem g⟩

/-- Three objects in three bins: nobody is left. -/
example : ∃ sp, mSplit [0, 1, 2] [1, 2, 3] ["a", "b", "c"] 3 = some sp ∧ sp.edges = [1, 2, 3, 3] := by
  exact ⟨⟨[1, 2, 3, 3], [[1], [2], [3]], [["a"], ["b"], ["c"]], [[0], [1], [2]]⟩, by decide, rfl⟩

/-- Part of C46 which holds: an object whose mass is not an edge enters the plot of exactly one bin. -/
theorem C46_inner_objects_partial {C : Type} (args : List Nat) (m : List K) (center : List C)
    (ha : IsArgsort args m) (hm : m ≠ []) (nb : Nat) (hnb : 0 < nb) (sp : Split K C)
    (h : mSplit args m center (nb : Int) = some sp) (x : K) (hx : x ∈ m) (hne : x ∉ sp.edges) :
    ∃! g, passes sp.edges g x := by
  obtain ⟨h1, hs, h3, -, -⟩ := edges_facts args m center ha hm nb hnb sp h
  have h0 : 0 < sp.edges.length := by omega
  have hne' : ∀ k (hk : k < sp.edges.length), sp.edges[k] ≠ x :=
    fun k hk he => hne (he ▸ List.getElem_mem hk)
  -- the last edge below x
  have hex : ∃ g, ∃ lo hi, sp.edges[g]? = some lo ∧ sp.edges[g + 1]? = some hi ∧ lo < x ∧ x < hi := by
    by_contra hcon
    push Not at hcon
    have hall : ∀ k (hk : k < sp.edges.length), sp.edges[k] < x := by
      intro k
      induction k with
      | zero =>
        intro hk
        exact lt_of_le_of_ne ((h3 x hx).1 _ (List.getElem?_eq_getElem hk)) (hne' 0 hk)
      | succ k ih =>
        intro hk
        have := hcon k _ _ (List.getElem?_eq_getElem (by omega)) (List.getElem?_eq_getElem hk)
          (ih (by omega))
        exact lt_of_le_of_ne this (hne' _ hk)
    have hl := (h3 x hx).2 _ (by
      rw [List.getLast?_eq_getElem?]
      exact List.getElem?_eq_getElem (by omega))
    exact absurd hl (not_le.2 (hall _ (by omega)))
  obtain ⟨g, lo, hi, hlo, hhi, hl, hh⟩ := hex
  refine ⟨g, ⟨lo, hi, hlo, hhi, hl, hh⟩, ?_⟩
  rintro g' ⟨lo', hi', hlo', hhi', hl', hh'⟩
  rcases Nat.lt_trichotomy g' g with hlt | heq | hgt
  · exact absurd (pairwise_getElem? hs hlt hhi' hlo) (not_le.2 (hl.trans hh'))
  · exact heq
  · exact absurd (pairwise_getElem? hs hgt hhi hlo') (not_le.2 (hl'.trans hh))

end Verif.Stats
