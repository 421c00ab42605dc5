import Verif.Stats.HistProps

/-!
# Chi-square comparison of two samples (C69)
-/

namespace Verif.Stats

/-- Sum form of the double loop. -/
theorem chiSquare_eq (occs : List (List ℝ)) (nb : Nat) :
    chiSquare occs nb = if ∀ row ∈ occs, ∀ x ∈ row, x = 0 then none
      else some ((occs.map fun row => ((List.range nb).map (chiTerm occs row)).sum).sum) := by
  unfold chiSquare
  have inner : ∀ (row : List ℝ) (bs : List Nat) (a : ℝ),
      bs.foldl (fun acc b => acc + chiTerm occs row b) a = a + (bs.map (chiTerm occs row)).sum := by
    intro row bs
    induction bs with
    | nil => simp
    | cons b bs ih => intro a; simp [ih, add_assoc]
  have outer : ∀ (rows : List (List ℝ)) (a : ℝ),
      rows.foldl (fun acc row => (List.range nb).foldl (fun acc b => acc + chiTerm occs row b) acc) a =
        a + (rows.map fun row => ((List.range nb).map (chiTerm occs row)).sum).sum := by
    intro rows
    induction rows with
    | nil => simp
    | cons row rows ih => intro a; rw [List.foldl_cons, ih, inner]; simp [add_assoc]
  rw [outer, zero_add]

/-- All counts are non-negative. -/
def Counts (occs : List (List ℝ)) : Prop := ∀ row ∈ occs, ∀ x ∈ row, 0 ≤ x

theorem getD_nonneg {row : List ℝ} (h : ∀ x ∈ row, 0 ≤ x) (b : Nat) : 0 ≤ row.getD b 0 := by
  rw [List.getD_eq_getElem?_getD]
  cases hb : row[b]? with
  | none => simp
  | some x => exact h x (List.mem_of_getElem? hb)

theorem colSum_nonneg {occs : List (List ℝ)} (h : Counts occs) (b : Nat) : 0 ≤ colSum occs b := by
  refine List.sum_nonneg ?_
  intro x hx
  obtain ⟨row, hr, rfl⟩ := List.mem_map.1 hx
  exact getD_nonneg (h row hr) b

theorem total_nonneg {occs : List (List ℝ)} (h : Counts occs) : 0 ≤ total occs := by
  refine List.sum_nonneg ?_
  intro x hx
  obtain ⟨row, hr, rfl⟩ := List.mem_map.1 hx
  exact List.sum_nonneg (h row hr)

theorem expect_nonneg {occs : List (List ℝ)} (h : Counts occs) {row : List ℝ} (hr : row ∈ occs) (b : Nat) :
    0 ≤ row.sum * colSum occs b / total occs :=
  div_nonneg (mul_nonneg (List.sum_nonneg (h row hr)) (colSum_nonneg h b)) (total_nonneg h)

theorem chiTerm_nonneg {occs : List (List ℝ)} (h : Counts occs) {row : List ℝ} (hr : row ∈ occs) (b : Nat) :
    0 ≤ chiTerm occs row b := by
  unfold chiTerm
  simp only
  split
  · exact div_nonneg (sq_nonneg _) (expect_nonneg h hr b)
  · exact le_rfl

/-- C69. The statistic is non-negative. -/
theorem C69_nonneg (occs : List (List ℝ)) (h : Counts occs) (nb : Nat) (c : ℝ)
    (hc : chiSquare occs nb = some c) : 0 ≤ c := by
  rw [chiSquare_eq] at hc
  split at hc
  · cases hc
  · rw [← Option.some.inj hc]
    refine List.sum_nonneg ?_
    intro x hx
    obtain ⟨row, hr, rfl⟩ := List.mem_map.1 hx
    refine List.sum_nonneg ?_
    intro y hy
    obtain ⟨b, -, rfl⟩ := List.mem_map.1 hy
    exact chiTerm_nonneg h hr b

/-- C69. The statistic does not depend on the order of the samples. -/
theorem C69_symmetric (occs occs' : List (List ℝ)) (h : occs.Perm occs') (nb : Nat) :
    chiSquare occs nb = chiSquare occs' nb := by
  have e1 : ∀ b, colSum occs b = colSum occs' b := fun b => (h.map _).sum_eq
  have e2 : total occs = total occs' := (h.map _).sum_eq
  have e3 : ∀ row, chiTerm occs row = chiTerm occs' row := by
    intro row; funext b; unfold chiTerm; rw [e1, e2]
  rw [chiSquare_eq, chiSquare_eq]
  have e4 : (∀ row ∈ occs, ∀ x ∈ row, x = 0) ↔ ∀ row ∈ occs', ∀ x ∈ row, x = 0 :=
    ⟨fun hh row hr => hh row (h.symm.subset hr), fun hh row hr => hh row (h.subset hr)⟩
  simp only [e4, e3]
  rw [(h.map _).sum_eq]

theorem le_sum_of_mem {l : List ℝ} (h : ∀ x ∈ l, 0 ≤ x) {x : ℝ} (hx : x ∈ l) : x ≤ l.sum :=
  List.single_le_sum h x hx

theorem sum_eq_zero_iff {l : List ℝ} (h : ∀ x ∈ l, 0 ≤ x) : l.sum = 0 ↔ ∀ x ∈ l, x = 0 := by
  constructor
  · intro hs x hx
    exact le_antisymm (hs ▸ le_sum_of_mem h hx) (h x hx)
  · intro hx
    exact List.sum_eq_zero hx

/-- C69. The statistic is zero exactly if all samples have the same distribution over the bins: in
every bin the count of a sample is its fair share of the counts of all samples. -/
theorem C69_zero_iff (occs : List (List ℝ)) (h : Counts occs) (nb : Nat) (hne : ∃ row ∈ occs, ∃ x ∈ row, x ≠ 0) :
    chiSquare occs nb = some 0 ↔
      ∀ row ∈ occs, ∀ b < nb, row.getD b 0 * total occs = row.sum * colSum occs b := by
  have htot : 0 < total occs := by
    obtain ⟨row, hr, x, hx, hx0⟩ := hne
    have h1 : x ≤ row.sum := le_sum_of_mem (h row hr) hx
    have h2 : row.sum ≤ total occs := le_sum_of_mem (by
      intro y hy
      obtain ⟨r, hr', rfl⟩ := List.mem_map.1 hy
      exact List.sum_nonneg (h r hr')) (List.mem_map.2 ⟨row, hr, rfl⟩)
    have h3 : 0 < x := lt_of_le_of_ne (h row hr x hx) (Ne.symm hx0)
    linarith
  have hterm : ∀ row ∈ occs, ∀ b, chiTerm occs row b = 0 ↔
      row.getD b 0 * total occs = row.sum * colSum occs b := by
    intro row hr b
    unfold chiTerm
    simp only
    by_cases he : row.sum * colSum occs b / total occs = 0
    · rw [if_neg (not_not.2 he)]
      have hprod : row.sum * colSum occs b = 0 := by
        rcases div_eq_zero_iff.1 he with h' | h'
        · exact h'
        · exact absurd h' htot.ne'
      have hz : row.getD b 0 = 0 := by
        have hg := getD_nonneg (h row hr) b
        rcases mul_eq_zero.1 hprod with h' | h'
        · rw [List.getD_eq_getElem?_getD]
          cases hb : row[b]? with
          | none => rfl
          | some x => exact (sum_eq_zero_iff (h row hr)).1 h' x (List.mem_of_getElem? hb)
        · have : row.getD b 0 ≤ colSum occs b := le_sum_of_mem (by
            intro y hy
            obtain ⟨r, hr', rfl⟩ := List.mem_map.1 hy
            exact getD_nonneg (h r hr') b) (List.mem_map.2 ⟨row, hr, rfl⟩)
          linarith
      rw [hz, hprod]; simp
    · rw [if_pos he, div_eq_zero_iff, or_iff_left he, sq_eq_zero_iff, sub_eq_zero, eq_div_iff htot.ne']
  rw [chiSquare_eq, if_neg (by push Not; exact hne), Option.some.injEq, sum_eq_zero_iff]
  · constructor
    · intro h0 row hr b hb
      have h1 := h0 _ (List.mem_map.2 ⟨row, hr, rfl⟩)
      rw [sum_eq_zero_iff] at h1
      · exact (hterm row hr b).1 (h1 _ (List.mem_map.2 ⟨b, List.mem_range.2 hb, rfl⟩))
      · intro y hy
        obtain ⟨b, -, rfl⟩ := List.mem_map.1 hy
        exact chiTerm_nonneg h hr b
    · intro h0 x hx
      obtain ⟨row, hr, rfl⟩ := List.mem_map.1 hx
      refine List.sum_eq_zero ?_
      intro y hy
      obtain ⟨b, hb, rfl⟩ := List.mem_map.1 hy
      exact (hterm row hr b).2 (h0 row hr b (List.mem_range.1 hb))
  · intro x hx
    obtain ⟨row, hr, rfl⟩ := List.mem_map.1 hx
    refine List.sum_nonneg ?_
    intro y hy
    obtain ⟨b, -, rfl⟩ := List.mem_map.1 hy
    exact chiTerm_nonneg h hr b

/-- C69. Identical samples (not all counts zero) have distance zero. -/
theorem C69_identical (row : List ℝ) (h : ∀ x ∈ row, 0 ≤ x) (hne : ∃ x ∈ row, x ≠ 0) (nb : Nat) :
    chiSquare [row, row] nb = some 0 := by
  rw [C69_zero_iff]
  · intro r hr b _
    simp only [List.mem_cons, List.not_mem_nil, or_false, or_self] at hr
    subst hr
    simp only [total, colSum, List.map_cons, List.map_nil, List.sum_cons, List.sum_nil]
    ring
  · intro r hr
    simp only [List.mem_cons, List.not_mem_nil, or_false, or_self] at hr
    subst hr; exact h
  · exact ⟨row, by simp, hne⟩

/-- Two samples with counts (1, 3) and (2, 6). -/
example : Counts [[1, 3], [2, 6]] ∧ chiSquare [[1, 3], [2, 6]] 2 = some 0 := by
  have hc : Counts [[1, 3], [2, 6]] := by
    intro row hr x hx
    simp only [List.mem_cons, List.not_mem_nil, or_false] at hr
    rcases hr with rfl | rfl <;> simp only [List.mem_cons, List.not_mem_nil, or_false] at hx <;>
      rcases hx with rfl | rfl <;> norm_num
  refine ⟨hc, (C69_zero_iff _ hc 2 ⟨[1, 3], by simp, 1, by simp, one_ne_zero⟩).2 ?_⟩
  intro row hr b hb
  simp only [List.mem_cons, List.not_mem_nil, or_false] at hr
  have : b = 0 ∨ b = 1 := by omega
  rcases hr with rfl | rfl <;> rcases this with rfl | rfl <;> norm_num [total, colSum]

/-! ## Counting -/

/-- The nearest of the ten values is one of them. -/
theorem closest_lt (x : ℝ) : closest yAxis (some x) < 10 := by
  unfold closest
  have e : (yAxis.map fun r => (some x).map fun x => |r - x|) = (yAxis.map fun r => |r - x|).map some := by
    simp only [List.map_map]; rfl
  obtain ⟨a, ha, -⟩ := argmin_min (yAxis.map fun r => |r - x|) (by
    intro h
    have := congrArg List.length h
    simp [yAxis] at this)
  rw [e]
  have := (List.getElem?_eq_some_iff.1 ha).1
  simpa [yAxis] using this

/-- Number `v` is, among the ten values 0, 1/9, ..., 1, the one nearest to `x` (the smaller one of two). -/
def Nearest (x : ℝ) (v : Nat) : Prop :=
  v < 10 ∧ (∀ j : Nat, j < 10 → |(v : ℝ) / 9 - x| ≤ |(j : ℝ) / 9 - x|) ∧ ∀ j < v, |(v : ℝ) / 9 - x| < |(j : ℝ) / 9 - x|

theorem Nearest.unique {x : ℝ} {v w : Nat} (hv : Nearest x v) (hw : Nearest x w) : v = w := by
  rcases lt_trichotomy v w with h | h | h
  · exact absurd (hw.2.2 v h) (not_lt.2 (hv.2.1 w hw.1))
  · exact h
  · exact absurd (hv.2.2 w h) (not_lt.2 (hw.2.1 v hv.1))

theorem closest_nearest (x : ℝ) : Nearest x (closest yAxis (some x)) := by
  classical
  have hlt := closest_lt x
  have e : (yAxis.map fun r => (some x).map fun x => |r - x|) = (yAxis.map fun r => |r - x|).map some := by
    simp only [List.map_map]; rfl
  have hget : ∀ j : Nat, j < 10 → (yAxis.map fun r => |r - x|)[j]? = some |(j : ℝ) / 9 - x| := by
    intro j hj
    simp [yAxis, List.getElem?_range hj]
  have hmin : ∀ j : Nat, j < 10 → |((closest yAxis (some x) : Nat) : ℝ) / 9 - x| ≤ |(j : ℝ) / 9 - x| := by
    obtain ⟨a, ha, hmin⟩ := argmin_min (yAxis.map fun r => |r - x|) (by
      intro h
      have := congrArg List.length h
      simp [yAxis] at this)
    rw [← e] at ha
    have ha' := hget _ hlt
    unfold closest at ha' ⊢
    rw [ha] at ha'
    intro j hj
    rw [← Option.some.inj ha']
    exact hmin _ (List.mem_of_getElem? (hget j hj))
  refine ⟨hlt, hmin, fun j hj => ?_⟩
  refine lt_of_le_of_ne (hmin j (by omega)) fun heq => ?_
  have hj' := hj
  unfold closest argmin at hj
  rw [e, if_neg (by simp)] at hj
  have := List.not_of_lt_findIdx hj
  simp only [decide_eq_false_iff_not] at this
  apply this
  intro y hy a b ha hb
  have hj10 : j < 10 := by omega
  obtain ⟨hl, he⟩ := List.getElem?_eq_some_iff.1 (hget j hj10)
  rw [List.getElem_map, he] at ha
  obtain ⟨c, hc, rfl⟩ := List.mem_map.1 hy
  obtain ⟨k, hk⟩ := List.getElem?_of_mem hc
  have hk10 : k < 10 := by
    have := (List.getElem?_eq_some_iff.1 hk).1
    simpa [yAxis] using this
  rw [hget k hk10] at hk
  rw [← Option.some.inj ha, ← Option.some.inj hb, ← Option.some.inj hk, ← heq]
  exact hmin k hk10

theorem closest_iff (x : ℝ) (v : Nat) : closest yAxis (some x) = v ↔ Nearest x v :=
  ⟨fun h => h ▸ closest_nearest x, fun h => (closest_nearest x).unique h⟩

open Classical in
/-- Number of points of bin `b` with the nearest value number `v`. -/
noncomputable def pointsAt (x : List (List ℝ)) (b v : Nat) : Nat :=
  ((x[b]?.getD []).filter fun pt => decide (Nearest pt v)).length

theorem pointsAt_eq (x : List (List ℝ)) (b v : Nat) :
    pointsAt x b v = ((x[b]?.getD []).filter fun pt => closest yAxis (some pt) = v).length := by
  unfold pointsAt
  congr 1
  apply List.filter_congr
  intro pt _
  exact decide_eq_decide.2 (closest_iff pt v).symm

theorem modify_getElem? (occ : List ℝ) (j i : Nat) :
    (occ.modify j (· + 1))[i]? = (occ[i]?).map fun x => if j = i then x + 1 else x := by
  rw [List.getElem?_modify]
  cases occ[i]? with
  | none => rfl
  | some x => simp only [Option.map_some]; split <;> rfl

theorem countPoints (bin : Nat) (pts : List ℝ) (occ : List ℝ) (i : Nat) :
    (pts.foldl (fun occ pt => occ.modify (10 * bin + closest yAxis (some pt)) (· + 1)) occ)[i]? =
      (occ[i]?).map fun x =>
        x + ((pts.filter fun pt => 10 * bin + closest yAxis (some pt) = i).length : ℝ) := by
  induction pts generalizing occ with
  | nil => simp
  | cons pt pts ih =>
    rw [List.foldl_cons, ih, modify_getElem?]
    cases occ[i]? with
    | none => rfl
    | some x =>
      simp only [Option.map_some]
      by_cases h : 10 * bin + closest yAxis (some pt) = i
      · simp [h]; ring
      · simp [h]

theorem countAll (x : List (List ℝ)) (n : Nat) (occ : List ℝ) (b v : Nat) (hv : v < 10) :
    ((x.zipIdx n).foldl (fun occ (pts, bin) =>
      pts.foldl (fun occ pt => occ.modify (10 * bin + closest yAxis (some pt)) (· + 1)) occ) occ)[10 * b + v]? =
      (occ[10 * b + v]?).map fun c => c + if n ≤ b then (pointsAt x (b - n) v : ℝ) else 0 := by
  induction x generalizing n occ with
  | nil => simp [pointsAt_eq]
  | cons pts x ih =>
    rw [List.zipIdx_cons, List.foldl_cons, ih, countPoints]
    cases occ[10 * b + v]? with
    | none => rfl
    | some c =>
      simp only [Option.map_some, Option.some.injEq]
      have hf : (pts.filter fun pt => 10 * n + closest yAxis (some pt) = 10 * b + v) =
          if n = b then pts.filter fun pt => closest yAxis (some pt) = v else [] := by
        by_cases h : n = b
        · subst h; simp
        · rw [if_neg h, List.filter_eq_nil_iff]
          intro pt _
          have := closest_lt pt
          rw [decide_eq_true_eq]
          omega
      rw [hf]
      by_cases h1 : n = b
      · subst h1
        simp [pointsAt_eq]
      · rw [if_neg h1]
        by_cases h2 : n ≤ b
        · have h3 : n + 1 ≤ b := by omega
          obtain ⟨k, hk⟩ : ∃ k, b - n = k + 1 := ⟨b - n - 1, by omega⟩
          have hk' : b - (n + 1) = k := by omega
          rw [if_pos h3, if_pos h2, hk, hk']
          simp [pointsAt_eq]
        · rw [if_neg (by omega), if_neg h2]; simp

/-- C69. Counting: entry number `10 b + v` is the number of points of bin `b` whose nearest of the ten
values 0, 1/9, ..., 1 is number `v`. -/
theorem C69_counts (x : List (List ℝ)) (b v : Nat) (hb : b < x.length) (hv : v < 10) :
    (countBins x)[10 * b + v]? = some (pointsAt x b v : ℝ) := by
  unfold countBins
  rw [countAll x 0 _ b v hv, List.getElem?_replicate, if_pos (show 10 * b + v < x.length * 10 by omega)]
  simp

theorem pts_length (bin : Nat) (pts occ : List ℝ) :
    (pts.foldl (fun occ pt => occ.modify (10 * bin + closest yAxis (some pt)) (· + 1)) occ).length =
      occ.length := by
  induction pts generalizing occ with
  | nil => rfl
  | cons pt pts ih => rw [List.foldl_cons, ih, List.length_modify]

theorem countBins_length (x : List (List ℝ)) : (countBins x).length = x.length * 10 := by
  unfold countBins
  have : ∀ (l : List (List ℝ × Nat)) (occ : List ℝ),
      (l.foldl (fun occ (pts, bin) =>
        pts.foldl (fun occ pt => occ.modify (10 * bin + closest yAxis (some pt)) (· + 1)) occ) occ).length =
        occ.length := by
    intro l
    induction l with
    | nil => intro occ; rfl
    | cons a l ih => intro occ; rw [List.foldl_cons, ih]; exact pts_length _ _ _
  rw [this, List.length_replicate]

theorem countBins_nonneg (x : List (List ℝ)) : ∀ c ∈ countBins x, 0 ≤ c := by
  intro c hc
  obtain ⟨i, hi⟩ := List.mem_iff_getElem?.1 hc
  have hlt := (List.getElem?_eq_some_iff.1 hi).1
  rw [countBins_length] at hlt
  have e : i = 10 * (i / 10) + i % 10 := (Nat.div_add_mod i 10).symm
  rw [e, C69_counts x (i / 10) (i % 10) (by omega) (by omega)] at hi
  rw [← Option.some.inj hi]
  exact Nat.cast_nonneg _

/-- C69. For the comparison of two profiles as a whole: different numbers of bins are rejected;
otherwise the distance is non-negative, symmetric, zero for identical samples, and independent of the
order of the points in each bin. -/
theorem C69_profiles (x y : List (List ℝ)) :
    (x.length ≠ y.length → chiSquareMultiDim x y = none) ∧
    chiSquareMultiDim x y = chiSquareMultiDim y x ∧
    (∀ c, chiSquareMultiDim x y = some (some c) → 0 ≤ c) ∧
    ((∃ pts ∈ x, pts ≠ []) → chiSquareMultiDim x x = some (some 0)) ∧
    (∀ x', List.Forall₂ List.Perm x x' → chiSquareMultiDim x y = chiSquareMultiDim x' y) := by
  have hC : ∀ a b, Counts [countBins a, countBins b] := by
    intro a b row hr
    simp only [List.mem_cons, List.not_mem_nil, or_false] at hr
    rcases hr with rfl | rfl <;> exact countBins_nonneg _
  refine ⟨fun h => if_neg h, ?_, ?_, ?_, ?_⟩
  · unfold chiSquareMultiDim
    by_cases h : x.length = y.length
    · rw [if_pos h, if_pos h.symm, C69_symmetric _ _ (List.Perm.swap _ _ _), h]
    · rw [if_neg h, if_neg (Ne.symm h)]
  · intro c hc
    unfold chiSquareMultiDim at hc
    split at hc
    · exact C69_nonneg _ (hC x y) _ _ (Option.some.inj hc)
    · cases hc
  · rintro ⟨pts, hpts, hne⟩
    unfold chiSquareMultiDim
    rw [if_pos rfl, C69_identical _ (countBins_nonneg x)]
    obtain ⟨b, hb⟩ := List.mem_iff_getElem?.1 hpts
    obtain ⟨pt, hpt⟩ := List.exists_mem_of_ne_nil _ hne
    have hlt := (List.getElem?_eq_some_iff.1 hb).1
    refine ⟨_, List.mem_of_getElem? (C69_counts x b _ hlt (closest_lt pt)), ?_⟩
    rw [Nat.cast_ne_zero]
    rw [pointsAt_eq]
    rw [hb, Option.getD_some]
    exact (List.length_pos_of_mem (List.mem_filter.2 ⟨hpt, by simp⟩)).ne'
  · intro x' hx
    have hlen : x.length = x'.length := hx.length_eq
    have : countBins x = countBins x' := by
      apply List.ext_getElem?
      intro i
      by_cases hi : i < x.length * 10
      · have e : i = 10 * (i / 10) + i % 10 := (Nat.div_add_mod i 10).symm
        rw [e, C69_counts x _ _ (by omega) (by omega), C69_counts x' _ _ (by omega) (by omega)]
        rw [pointsAt_eq, pointsAt_eq]
        have hb : i / 10 < x.length := by omega
        have hp := (List.forall₂_iff_get.1 hx).2 (i / 10) hb (by omega)
        rw [List.getElem?_eq_getElem hb, List.getElem?_eq_getElem (by omega)]
        simp only [Option.getD_some]
        have := (hp.filter fun pt => decide (closest yAxis (some pt) = i % 10)).length_eq
        simp only [List.get_eq_getElem] at this
        rw [this]
      · rw [List.getElem?_eq_none (by rw [countBins_length]; omega),
          List.getElem?_eq_none (by rw [countBins_length]; omega)]
    unfold chiSquareMultiDim
    rw [this, hlen]

/-- Two profiles with two bins each. -/
example : ∃ c, chiSquareMultiDim [[1 / 2, 1], [0]] [[1 / 3], [1, 1]] = some (some c) ∧ 0 ≤ c := by
  have h : chiSquareMultiDim [[1 / 2, 1], [0]] [[1 / 3], [1, 1]] =
      some (chiSquare [countBins [[1 / 2, 1], [0]], countBins [[1 / 3], [1, 1]]] 20) := by
    simp [chiSquareMultiDim]
  cases hc : chiSquare [countBins [[1 / 2, 1], [0]], countBins [[1 / 3], [1, 1]]] 20 with
  | some c => exact ⟨c, by rw [h, hc], (C69_profiles _ _).2.2.1 c (by rw [h, hc])⟩
  | none =>
    exfalso
    rw [chiSquare_eq] at hc
    split at hc
    · rename_i h0
      have h1 := C69_counts [[1 / 2, 1], [0]] 0 _ (by simp) (closest_lt (1 / 2))
      have h2 := h0 _ (by simp) _ (List.mem_of_getElem? h1)
      rw [Nat.cast_eq_zero] at h2
      rw [pointsAt_eq] at h2
      rw [List.length_eq_zero_iff, List.filter_eq_nil_iff] at h2
      exact h2 (1 / 2) (by simp) (by simp)
    · cases hc

end Verif.Stats
