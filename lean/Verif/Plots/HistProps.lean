import Verif.Plots.Model
import Mathlib.Algebra.Order.BigOperators.Group.List
import Mathlib.Tactic.Linarith
import Mathlib.Tactic.FieldSimp
import Mathlib.Tactic.Positivity

/-!
# Histograms of triaxialities and ellipticities (C121)
-/

namespace Verif.Plots

/-- The value `v` belongs to bar number `i` of `n` bars of equal width covering `[0, 1]`. -/
def InBar (n i : Nat) (v : ℝ) : Prop := (i : ℝ) ≤ n * v ∧ (n * v < i + 1 ∨ i + 1 = n ∧ v = 1)

/-- The value is in `[0, 1]`. -/
def InRange (v : ℝ) : Prop := 0 ≤ v ∧ v ≤ 1

/-- Every value of `[0, 1]` is in exactly one bar. -/
theorem inBar_unique (n : Nat) (hn : 0 < n) (v : ℝ) (h0 : 0 ≤ v) (h1 : v ≤ 1) : ∃! i, i < n ∧ InBar n i v := by
  have hn' : (0 : ℝ) < n := by exact_mod_cast hn
  rcases eq_or_lt_of_le h1 with rfl | hlt
  · refine ⟨n - 1, ⟨by omega, ?_, .inr ⟨by omega, rfl⟩⟩, ?_⟩
    · rw [Nat.cast_sub hn]; simp
    · rintro i ⟨hi, -, h | h⟩
      · have : n < i + 1 := by
          have : (n : ℝ) < ((i + 1 : Nat) : ℝ) := by push_cast; linarith
          exact_mod_cast this
        omega
      · omega
  · have hf := Nat.floor_le (mul_nonneg hn'.le h0)
    have hf2 := Nat.lt_floor_add_one (n * v)
    have hfn : ⌊(n : ℝ) * v⌋₊ < n := by
      rw [Nat.floor_lt (mul_nonneg hn'.le h0)]
      nlinarith
    refine ⟨⌊(n : ℝ) * v⌋₊, ⟨hfn, hf, .inl hf2⟩, ?_⟩
    rintro i ⟨hi, hl, h | h⟩
    · symm
      rw [Nat.floor_eq_iff (mul_nonneg hn'.le h0)]
      exact ⟨hl, h⟩
    · exact absurd h.2 hlt.ne

theorem inBar_range {n i : Nat} (hi : i < n) {v : ℝ} (h : InBar n i v) : 0 ≤ v ∧ v ≤ 1 := by
  have hn' : (0 : ℝ) < n := by exact_mod_cast (by omega : 0 < n)
  constructor
  · have : 0 ≤ (n : ℝ) * v := le_trans (Nat.cast_nonneg i) h.1
    by_contra hc
    push Not at hc
    nlinarith
  · rcases h.2 with h2 | h2
    · have : (i : ℝ) + 1 ≤ n := by exact_mod_cast hi
      by_contra hc
      push Not at hc
      nlinarith
    · exact h2.2.le

theorem edges_getD (nb k : Nat) (hk : k < nb) : (edges nb).getD k 0 = (k : ℝ) / ((nb : ℝ) - 1) := by
  unfold edges
  rw [List.getD_eq_getElem?_getD, List.getElem?_map, List.getElem?_range hk]
  rfl

open Classical in
/-- The counts are the numbers of values in the bars. -/
theorem counts_eq (n : Nat) (hn : 0 < n) (vs : List ℝ) :
    counts (edges (n + 1)) vs = (List.range n).map fun i => vs.countP fun v => decide (InBar n i v) := by
  have hn' : (0 : ℝ) < n := by exact_mod_cast hn
  have hl : (edges (n + 1)).length = n + 1 := by simp [edges]
  unfold counts
  rw [hl, Nat.add_sub_cancel]
  apply List.map_congr_left
  intro i hi
  have hi := List.mem_range.1 hi
  apply List.countP_congr
  intro v _
  have e1 := edges_getD (n + 1) i (by omega)
  have e2 := edges_getD (n + 1) (i + 1) (by omega)
  have e3 : ((n + 1 : Nat) : ℝ) - 1 = n := by push_cast; ring
  rw [e3] at e1 e2
  rw [e1, e2]
  rw [decide_eq_true_iff, decide_eq_true_iff]
  unfold InBar
  rw [div_le_iff₀ hn', lt_div_iff₀ hn', mul_comm v]
  push_cast
  constructor
  · rintro ⟨ha, h | h⟩
    · exact ⟨ha, .inl h⟩
    · refine ⟨ha, .inr ⟨by omega, ?_⟩⟩
      have : ((i : ℝ) + 1) = n := by exact_mod_cast (by omega : i + 1 = n)
      rw [h.2, this, div_self hn'.ne']
  · rintro ⟨ha, h | h⟩
    · exact ⟨ha, .inl h⟩
    · refine ⟨ha, .inr ⟨by omega, ?_⟩⟩
      have : ((i : ℝ) + 1) = n := by exact_mod_cast h.1
      rw [h.2, this, div_self hn'.ne']

open Classical in
theorem sum_bars (n : Nat) (hn : 0 < n) (vs : List ℝ) :
    ((List.range n).map fun i => vs.countP fun v => decide (InBar n i v)).sum =
      vs.countP fun v => decide (InRange v) := by
  induction vs with
  | nil => simp
  | cons v vs ih =>
    simp only [List.countP_cons, decide_eq_true_eq]
    have hsum : ((List.range n).map fun i => (vs.countP fun v => decide (InBar n i v)) + if InBar n i v then 1 else 0).sum =
        ((List.range n).map fun i => vs.countP fun v => decide (InBar n i v)).sum +
          ((List.range n).map fun i => if InBar n i v then 1 else 0).sum := by
      exact List.sum_map_add
    rw [hsum, ih]
    congr 1
    by_cases hv : InRange v
    · rw [if_pos hv]
      obtain ⟨i, ⟨hi, hin⟩, hu⟩ := inBar_unique n hn v hv.1 hv.2
      have : ((List.range n).map fun j => if InBar n j v then 1 else 0) =
          (List.range n).map fun j => if j = i then 1 else 0 := by
        apply List.map_congr_left
        intro j hj
        by_cases hji : j = i
        · subst hji; rw [if_pos hin, if_pos rfl]
        · rw [if_neg hji, if_neg fun h => hji (hu j ⟨List.mem_range.1 hj, h⟩)]
      rw [this]
      have gen : ∀ l : List Nat, (l.map fun j => if j = i then 1 else 0).sum = l.count i := by
        intro l
        induction l with
        | nil => rfl
        | cons a l ih => simp [ih, List.count_cons, add_comm]
      rw [gen, List.count_eq_one_of_mem List.nodup_range (List.mem_range.2 hi)]
    · rw [if_neg hv]
      have : ((List.range n).map fun j => if InBar n j v then 1 else 0) = (List.range n).map fun _ => 0 := by
        apply List.map_congr_left
        intro j hj
        exact if_neg fun h => hv (inBar_range (List.mem_range.1 hj) h)
      rw [this]
      simp

open Classical in
/-- Number of values in bar `i` of `n`. -/
noncomputable def inBarCount (n i : Nat) (vs : List (Option ℝ)) : Nat :=
  vs.countP fun v => decide (∃ x, v = some x ∧ InBar n i x)

open Classical in
/-- Number of values in `[0, 1]`. -/
noncomputable def inRangeCount (vs : List (Option ℝ)) : Nat :=
  vs.countP fun v => decide (∃ x, v = some x ∧ InRange x)

open Classical in
theorem countP_filterMap_id (vs : List (Option ℝ)) (P : ℝ → Prop) :
    ((vs.filterMap id).countP fun v => decide (P v)) = vs.countP fun v => decide (∃ x, v = some x ∧ P x) := by
  induction vs with
  | nil => rfl
  | cons v vs ih =>
    cases v with
    | none =>
      rw [List.filterMap_cons_none rfl, ih, List.countP_cons_of_neg (by simp)]
    | some x =>
      rw [show (some x :: vs).filterMap id = x :: vs.filterMap id from rfl, List.countP_cons, List.countP_cons, ih]
      simp

open Classical in
theorem histogram_eq (n : Nat) (hn : 0 < n) (vs : List (Option ℝ)) :
    histogram (n + 1) vs = (List.range n).map fun i =>
      if inRangeCount vs = 0 then none else some ((inBarCount n i vs : ℝ) * n / inRangeCount vs) := by
  have hn' : (0 : ℝ) < n := by exact_mod_cast hn
  have hc := counts_eq n hn (vs.filterMap id)
  have hsum : (counts (edges (n + 1)) (vs.filterMap id)).sum = inRangeCount vs := by
    rw [hc, sum_bars n hn, countP_filterMap_id]
    rfl
  unfold histogram
  simp only [hsum]
  apply List.ext_getElem?
  intro i
  rw [List.getElem?_map, List.getElem?_zipIdx, List.getElem?_map, hc, List.getElem?_map]
  by_cases hi : i < n
  · rw [List.getElem?_range hi]
    simp only [Option.map_some, zero_add, countP_filterMap_id]
    have e3 : ((n + 1 : Nat) : ℝ) - 1 = n := by push_cast; ring
    have e1 := edges_getD (n + 1) i (by omega)
    have e2 := edges_getD (n + 1) (i + 1) (by omega)
    rw [e3] at e1 e2
    rw [e1, e2]
    congr 1
    by_cases h0 : inRangeCount vs = 0
    · rw [if_pos h0, if_pos h0]
    · rw [if_neg h0, if_neg h0]
      have hw : ((i + 1 : Nat) : ℝ) / n - i / n = 1 / n := by push_cast; ring
      rw [hw]
      simp only [inBarCount]
      field_simp
  · rw [List.getElem?_eq_none (by simpa using hi)]
    rfl

/-- C121 (the part which holds). The bars of a histogram made with `HIST_NB_BINS = n + 1` are `n` bars of the same
width `1 / n` which cover `[0, 1]`; every value in `[0, 1]` belongs to exactly one bar.  If there is such a value, the
area of each bar is the fraction of the values in `[0, 1]` which it contains, and the areas of all bars sum to one. -/
theorem C121_bars_partial (n : Nat) (hn : 0 < n) (vs : List (Option ℝ)) :
    (histogram (n + 1) vs).length = n ∧
    (∀ v : ℝ, (InRange v → ∃! i, i < n ∧ InBar n i v) ∧ (∀ i < n, InBar n i v → InRange v)) ∧
    ((∃ x, some x ∈ vs ∧ InRange x) → ∃ hs : List ℝ, histogram (n + 1) vs = hs.map some ∧
      (∀ i < n, ∃ h, hs[i]? = some h ∧ 0 ≤ h ∧ h * (1 / n) * inRangeCount vs = inBarCount n i vs) ∧
      hs.sum * (1 / n) = 1) := by
  classical
  have hn' : (0 : ℝ) < n := by exact_mod_cast hn
  rw [histogram_eq n hn]
  refine ⟨by simp, fun v => ⟨fun h => inBar_unique n hn v h.1 h.2, fun i hi h => inBar_range hi h⟩, ?_⟩
  rintro ⟨x, hx, h01⟩
  have hpos : 0 < inRangeCount vs := by
    unfold inRangeCount
    rw [List.countP_pos_iff]
    exact ⟨some x, hx, by simpa using h01⟩
  have hpos' : (0 : ℝ) < inRangeCount vs := by exact_mod_cast hpos
  refine ⟨(List.range n).map fun i => (inBarCount n i vs : ℝ) * n / inRangeCount vs, ?_, ?_, ?_⟩
  · rw [List.map_map]
    apply List.map_congr_left
    intro i _
    rw [if_neg hpos.ne']
    rfl
  · intro i hi
    refine ⟨(inBarCount n i vs : ℝ) * n / inRangeCount vs, by rw [List.getElem?_map, List.getElem?_range hi]; rfl,
      by positivity, by field_simp⟩
  · have hs := sum_bars n hn (vs.filterMap id)
    rw [countP_filterMap_id] at hs
    have hs' : ((List.range n).map fun i => inBarCount n i vs).sum = inRangeCount vs := by
      unfold inBarCount inRangeCount
      rw [← hs]
      congr 1
      apply List.map_congr_left
      intro i _
      rw [countP_filterMap_id]
    have gen : ∀ l : List Nat, (l.map fun i => (inBarCount n i vs : ℝ) * n / inRangeCount vs).sum =
        ((l.map fun i => inBarCount n i vs).sum : ℕ) * (n / inRangeCount vs) := by
      intro l
      induction l with
      | nil => simp
      | cons a l ih => simp only [List.map_cons, List.sum_cons, ih]; push_cast; ring
    rw [gen, hs']
    field_simp

/-- The default number 11 and three values, one of them NaN. -/
example : (0 : Nat) < 10 ∧ ∃ x, some x ∈ [some (1 / 2 : ℝ), none, some 1] ∧ InRange x :=
  ⟨by norm_num, 1 / 2, by simp, by norm_num, by norm_num⟩

/-- C121 is false of the number of bars: "HIST_NB_BINS: Number of histogram bins" always gives one bar less. -/
theorem C121_number_refuted (nb : Nat) (h : 2 ≤ nb) (vs : List (Option ℝ)) : (histogram nb vs).length + 1 = nb := by
  obtain ⟨n, rfl⟩ : ∃ n, nb = n + 1 := ⟨nb - 1, by omega⟩
  rw [(C121_bars_partial n (by omega) vs).1]

end Verif.Plots
