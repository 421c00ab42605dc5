import Mathlib.Data.Real.Basic
import Mathlib.Algebra.BigOperators.Group.List.Basic
import Mathlib.Order.Bounds.Basic
import Mathlib.Tactic.Linarith
import Mathlib.Tactic.FieldSimp
import Mathlib.Tactic.Positivity
import Mathlib.Tactic.NormNum

/-!
# Comparison of two samples (C131)

* `KSTest` (`cosmic_profiles/common/cosmo_tools.py:153-171`)
-/

namespace Verif.Stats

open Classical

/-! ## Model -/

/-- `np.searchsorted(sorted(x), t, side='right')/len(x)`: the fraction of values up to `t`. -/
noncomputable def ecdf (x : List ℝ) (t : ℝ) : ℝ := ((x.filter fun a => decide (a ≤ t)).length : ℝ) / x.length

/-- First entry of `scipy.stats.ks_2samp(x, y)` (two-sided): with `cddiffs` the differences of the two fractions at all values of
both samples, the larger of `clip(-min(cddiffs), 0, 1)` and `max(cddiffs)`. Outside the repository; written from its
documentation and source. -/
noncomputable def ksStatistic (x y : List ℝ) : ℝ :=
  let diffs := (x ++ y).map fun t => ecdf x t - ecdf y t
  max (min 1 (max 0 (-(diffs.foldr min 1)))) (diffs.foldr max (-1))

/-- `KSTest`, cosmo_tools.py:153-171, without the p-value: `none` = NaN. -/
noncomputable def ksTest (x y : List ℝ) : Option ℝ :=
  if x.length = 0 ∨ y.length = 0 then none else some (ksStatistic x y)

/-! ## Proofs -/

theorem ecdf_nonneg (x : List ℝ) (t : ℝ) : 0 ≤ ecdf x t := by unfold ecdf; positivity

theorem ecdf_le_one (x : List ℝ) (t : ℝ) : ecdf x t ≤ 1 := by
  unfold ecdf
  apply div_le_one_of_le₀
  · exact_mod_cast List.length_filter_le _ _
  · positivity

theorem foldr_max_ge (l : List ℝ) (b : ℝ) : b ≤ l.foldr max b ∧ ∀ a ∈ l, a ≤ l.foldr max b := by
  induction l with
  | nil => simp
  | cons a l ih =>
    simp only [List.foldr_cons]
    refine ⟨le_trans ih.1 (le_max_right _ _), ?_⟩
    intro c hc
    rcases List.mem_cons.1 hc with rfl | hc
    · exact le_max_left _ _
    · exact le_trans (ih.2 c hc) (le_max_right _ _)

theorem foldr_max_mem (l : List ℝ) (b : ℝ) : l.foldr max b = b ∨ l.foldr max b ∈ l := by
  induction l with
  | nil => simp
  | cons a l ih =>
    simp only [List.foldr_cons]
    rcases max_choice a (l.foldr max b) with h | h
    · rw [h]; exact .inr (by simp)
    · rw [h]
      rcases ih with ih | ih
      · exact .inl ih
      · exact .inr (List.mem_cons_of_mem _ ih)

theorem foldr_min_le (l : List ℝ) (b : ℝ) : l.foldr min b ≤ b ∧ ∀ a ∈ l, l.foldr min b ≤ a := by
  induction l with
  | nil => simp
  | cons a l ih =>
    simp only [List.foldr_cons]
    refine ⟨le_trans (min_le_right _ _) ih.1, ?_⟩
    intro c hc
    rcases List.mem_cons.1 hc with rfl | hc
    · exact min_le_left _ _
    · exact le_trans (min_le_right _ _) (ih.2 c hc)

theorem foldr_min_mem (l : List ℝ) (b : ℝ) : l.foldr min b = b ∨ l.foldr min b ∈ l := by
  induction l with
  | nil => simp
  | cons a l ih =>
    simp only [List.foldr_cons]
    rcases min_choice a (l.foldr min b) with h | h
    · rw [h]; exact .inr (by simp)
    · rw [h]
      rcases ih with ih | ih
      · exact .inl ih
      · exact .inr (List.mem_cons_of_mem _ ih)

/-- Below all values the fraction is 0; otherwise it is that at the largest value up to `t`. -/
theorem same_as_at_value (x y : List ℝ) (t : ℝ) :
    (ecdf x t = 0 ∧ ecdf y t = 0) ∨ ∃ u ∈ x ++ y, ecdf x t = ecdf x u ∧ ecdf y t = ecdf y u := by
  let low := (x ++ y).filter fun a => decide (a ≤ t)
  by_cases h : low = []
  · left
    have hno : ∀ a ∈ x ++ y, ¬ a ≤ t := by
      intro a ha hat
      have : a ∈ low := List.mem_filter.2 ⟨ha, by simpa using hat⟩
      rw [h] at this
      exact absurd this (by simp)
    have hz : ∀ l : List ℝ, (∀ a ∈ l, ¬ a ≤ t) → ecdf l t = 0 := by
      intro l hl
      unfold ecdf
      rw [List.filter_eq_nil_iff.2 (by simpa using hl)]
      simp
    exact ⟨hz x fun a ha => hno a (List.mem_append_left _ ha), hz y fun a ha => hno a (List.mem_append_right _ ha)⟩
  · right
    obtain ⟨b, l, hbl⟩ := List.exists_cons_of_ne_nil h
    have hu : low.foldr max b ∈ low := by
      rcases foldr_max_mem low b with h | h
      · rw [h, hbl]; simp
      · exact h
    have hmax := (foldr_max_ge low b).2
    have hut : low.foldr max b ≤ t := by simpa using (List.mem_filter.1 hu).2
    have key : ∀ l : List ℝ, (∀ a ∈ l, a ∈ x ++ y) → ecdf l t = ecdf l (low.foldr max b) := by
      intro l hl
      unfold ecdf
      congr 3
      apply List.filter_congr
      intro a ha
      rw [decide_eq_decide]
      exact ⟨fun h => hmax a (List.mem_filter.2 ⟨hl a ha, by simpa using h⟩), fun h => le_trans h hut⟩
    exact ⟨_, (List.mem_filter.1 hu).1, key x fun a ha => List.mem_append_left _ ha,
      key y fun a ha => List.mem_append_right _ ha⟩

/-- C131. The statistic is NaN exactly if a sample is empty; otherwise it is the largest difference, over all real numbers `t`,
between the fractions of values up to `t` in the two samples. -/
theorem C131_largest_difference (x y : List ℝ) :
    (ksTest x y = none ↔ x = [] ∨ y = []) ∧
    ∀ d, ksTest x y = some d → IsGreatest (Set.range fun t => |ecdf x t - ecdf y t|) d := by
  constructor
  · unfold ksTest
    simp only [List.length_eq_zero_iff]
    split <;> simp_all
  · intro d hd
    unfold ksTest at hd
    split at hd
    · cases hd
    rename_i hne
    simp only [List.length_eq_zero_iff, not_or] at hne
    obtain rfl := Option.some.inj hd
    have hb : ∀ t, |ecdf x t - ecdf y t| ≤ 1 := fun t => by
      rw [abs_le]
      have := ecdf_nonneg x t; have := ecdf_nonneg y t; have := ecdf_le_one x t; have := ecdf_le_one y t
      constructor <;> linarith
    -- above all values the difference is 0
    obtain ⟨top, htop, h0⟩ : ∃ u ∈ x ++ y, ecdf x u - ecdf y u = 0 := by
      obtain ⟨a, l, hx⟩ := List.exists_cons_of_ne_nil hne.1
      have hm : (x ++ y).foldr max a ∈ x ++ y := by
        rcases foldr_max_mem (x ++ y) a with h | h
        · rw [h, hx]; simp
        · exact h
      have hg := (foldr_max_ge (x ++ y) a).2
      refine ⟨_, hm, ?_⟩
      have h1 : ∀ l : List ℝ, l ≠ [] → (∀ b ∈ l, b ∈ x ++ y) → ecdf l ((x ++ y).foldr max a) = 1 := by
        intro l hl hsub
        unfold ecdf
        rw [List.filter_eq_self.2 (by simpa using fun b hb => hg b (hsub b hb))]
        have : (l.length : ℝ) ≠ 0 := by simpa using hl
        field_simp
      rw [h1 x hne.1 fun b hb => List.mem_append_left _ hb, h1 y hne.2 fun b hb => List.mem_append_right _ hb, sub_self]
    have hup : ∀ u ∈ x ++ y, ecdf x u - ecdf y u ≤ ksStatistic x y ∧ -(ecdf x u - ecdf y u) ≤ ksStatistic x y := by
      intro u hu
      unfold ksStatistic
      dsimp only
      have hmem : ecdf x u - ecdf y u ∈ (x ++ y).map fun t => ecdf x t - ecdf y t := List.mem_map_of_mem hu
      constructor
      · exact le_trans ((foldr_max_ge _ _).2 _ hmem) (le_max_right _ _)
      · refine le_trans ?_ (le_max_left _ _)
        have h2 := (foldr_min_le ((x ++ y).map fun t => ecdf x t - ecdf y t) 1).2 _ hmem
        refine le_min ?_ (le_trans (by linarith) (le_max_right _ _))
        exact le_trans (neg_le_abs _) (hb u)
    have hpos : 0 ≤ ksStatistic x y := by have := (hup top htop).1; linarith
    constructor
    · -- attained
      have : ksStatistic x y = ksStatistic x y := rfl
      conv_rhs at this => unfold ksStatistic
      dsimp only at this
      rcases max_choice (min 1 (max 0 (-(((x ++ y).map fun t => ecdf x t - ecdf y t).foldr min 1))))
        (((x ++ y).map fun t => ecdf x t - ecdf y t).foldr max (-1)) with h | h
      · rw [h] at this
        rcases foldr_min_mem ((x ++ y).map fun t => ecdf x t - ecdf y t) 1 with hm | hm
        · exfalso
          have := (foldr_min_le ((x ++ y).map fun t => ecdf x t - ecdf y t) 1).2 _ (List.mem_map_of_mem htop)
          rw [h0, hm] at this
          linarith
        · obtain ⟨u, hu, hue⟩ := List.mem_map.1 hm
          rw [← hue] at this
          have hle0 : ecdf x u - ecdf y u ≤ 0 := by
            have h3 := (foldr_min_le ((x ++ y).map fun t => ecdf x t - ecdf y t) 1).2 _ (List.mem_map_of_mem htop)
            rw [h0] at h3
            exact le_of_eq_of_le hue h3
          refine ⟨u, ?_⟩
          dsimp only
          rw [this, max_eq_right (by linarith), min_eq_right (le_trans (neg_le_abs _) (hb u)), abs_of_nonpos hle0]
      · rw [h] at this
        rcases foldr_max_mem ((x ++ y).map fun t => ecdf x t - ecdf y t) (-1) with hm | hm
        · rw [hm] at this; linarith
        · obtain ⟨u, hu, hue⟩ := List.mem_map.1 hm
          refine ⟨u, ?_⟩
          dsimp only
          have hue' : ecdf x u - ecdf y u = ksStatistic x y := by rw [this, ← hue]
          rw [hue', abs_of_nonneg hpos]
    · rintro _ ⟨t, rfl⟩
      dsimp only
      rcases same_as_at_value x y t with ⟨h1, h2⟩ | ⟨u, hu, h1, h2⟩
      · rw [h1, h2]; simpa using hpos
      · rw [h1, h2, abs_le]
        have := hup u hu
        constructor <;> linarith

theorem ecdf_perm {x x' : List ℝ} (h : x.Perm x') (t : ℝ) : ecdf x t = ecdf x' t := by
  unfold ecdf
  rw [(h.filter _).length_eq, h.length_eq]

theorem some_of_ne (x y : List ℝ) (hx : x ≠ []) (hy : y ≠ []) : ksTest x y = some (ksStatistic x y) := by
  unfold ksTest
  rw [if_neg (by simp [hx, hy])]

/-- Two tests agree if the sets of differences do. -/
theorem eq_of_range (x y x' y' : List ℝ) (hn : (x = [] ∨ y = []) ↔ (x' = [] ∨ y' = []))
    (h : x ≠ [] → y ≠ [] → (Set.range fun t => |ecdf x t - ecdf y t|) = Set.range fun t => |ecdf x' t - ecdf y' t|) :
    ksTest x y = ksTest x' y' := by
  by_cases h0 : x = [] ∨ y = []
  · rw [(C131_largest_difference x y).1.2 h0, (C131_largest_difference x' y').1.2 (hn.1 h0)]
  · have h0' : ¬(x' = [] ∨ y' = []) := fun h => h0 (hn.2 h)
    simp only [not_or] at h0 h0'
    rw [some_of_ne x y h0.1 h0.2, some_of_ne x' y' h0'.1 h0'.2]
    have h1 := (C131_largest_difference x y).2 _ (some_of_ne x y h0.1 h0.2)
    have h2 := (C131_largest_difference x' y').2 _ (some_of_ne x' y' h0'.1 h0'.2)
    rw [h h0.1 h0.2] at h1
    rw [h1.unique h2]

theorem ecdf_replicated (x : List ℝ) (k : Nat) (hk : k ≠ 0) (t : ℝ) : ecdf (List.replicate k x).flatten t = ecdf x t := by
  unfold ecdf
  have h1 : ∀ k, (((List.replicate k x).flatten.filter fun a => decide (a ≤ t)).length) =
      k * (x.filter fun a => decide (a ≤ t)).length := by
    intro k
    induction k with
    | zero => simp
    | succ k ih =>
      rw [List.replicate_succ, List.flatten_cons, List.filter_append, List.length_append, ih, Nat.succ_mul, Nat.add_comm]
  have h2 : (List.replicate k x).flatten.length = k * x.length := by simp
  rw [h1, h2]
  push_cast
  exact mul_div_mul_left _ _ (by exact_mod_cast hk)

/-- C131. The statistic is between 0 and 1; it depends neither on the order of the samples nor on that of the values within a
sample; repeating every value of a sample equally often ("whether normalized or not is irrelevant") changes nothing; it is 0 exactly
if the two samples have the same distribution. -/
theorem C131_symmetries (x y : List ℝ) :
    ksTest y x = ksTest x y ∧
    (∀ x' y', x.Perm x' → y.Perm y' → ksTest x' y' = ksTest x y) ∧
    (∀ k l : Nat, k ≠ 0 → l ≠ 0 → ksTest (List.replicate k x).flatten (List.replicate l y).flatten = ksTest x y) ∧
    (∀ d, ksTest x y = some d → 0 ≤ d ∧ d ≤ 1 ∧ (d = 0 ↔ ∀ t, ecdf x t = ecdf y t)) := by
  have hflat : ∀ (l : List ℝ) (k : Nat), k ≠ 0 → ((List.replicate k l).flatten = [] ↔ l = []) := by
    intro l k hk
    rw [List.flatten_eq_nil_iff]
    constructor
    · intro h; exact h l (List.mem_replicate.2 ⟨hk, rfl⟩)
    · rintro rfl a ha; exact (List.mem_replicate.1 ha).2
  refine ⟨?_, ?_, ?_, ?_⟩
  · apply eq_of_range
    · exact Or.comm
    · intro _ _
      congr 1
      funext t
      exact abs_sub_comm _ _
  · intro x' y' hx hy
    apply eq_of_range
    · constructor
      · rintro (rfl | rfl)
        · exact .inl hx.eq_nil
        · exact .inr hy.eq_nil
      · rintro (rfl | rfl)
        · exact .inl hx.symm.eq_nil
        · exact .inr hy.symm.eq_nil
    · intro _ _
      congr 1
      funext t
      rw [ecdf_perm hx, ecdf_perm hy]
  · intro k l hk hl
    apply eq_of_range
    · rw [hflat x k hk, hflat y l hl]
    · intro _ _
      congr 1
      funext t
      rw [ecdf_replicated x k hk, ecdf_replicated y l hl]
  · intro d hd
    obtain ⟨⟨t, ht⟩, hup⟩ := (C131_largest_difference x y).2 d hd
    dsimp only at ht
    have hu : ∀ t, |ecdf x t - ecdf y t| ≤ d := fun t => hup ⟨t, rfl⟩
    refine ⟨?_, ?_, ?_⟩
    · rw [← ht]; exact abs_nonneg _
    · rw [← ht, abs_le]
      have := ecdf_nonneg x t; have := ecdf_nonneg y t; have := ecdf_le_one x t; have := ecdf_le_one y t
      constructor <;> linarith
    · constructor
      · rintro rfl t
        have := abs_nonpos_iff.1 (hu t)
        linarith
      · intro h
        rw [← ht, h t, sub_self, abs_zero]

/-- C131. Only the order of the values matters: a strictly increasing function applied to both samples (logarithm, change of unit)
leaves the statistic as it is. -/
theorem C131_rescaled (f : ℝ → ℝ) (hf : StrictMono f) (x y : List ℝ) : ksTest (x.map f) (y.map f) = ksTest x y := by
  have he : ∀ (l : List ℝ) t, ecdf (l.map f) (f t) = ecdf l t := by
    intro l t
    unfold ecdf
    rw [List.filter_map, List.length_map, List.length_map]
    congr 3
    apply List.filter_congr
    intro a _
    simp only [Function.comp_def]
    rw [decide_eq_decide]
    exact hf.le_iff_le
  apply eq_of_range
  · simp
  · intro hx hy
    ext d
    constructor
    · rintro ⟨t, rfl⟩
      rcases same_as_at_value (x.map f) (y.map f) t with ⟨h1, h2⟩ | ⟨u, hu, h1, h2⟩
      · -- below all values
        have hx' : x ≠ [] := by simpa using hx
        obtain ⟨a, l, hal⟩ := List.exists_cons_of_ne_nil hx'
        refine ⟨(x ++ y).foldr min a - 1, ?_⟩
        have hlt := (foldr_min_le (x ++ y) a).2
        have hz : ∀ l : List ℝ, (∀ b ∈ l, b ∈ x ++ y) → ecdf l ((x ++ y).foldr min a - 1) = 0 := by
          intro l hl
          unfold ecdf
          rw [List.filter_eq_nil_iff.2]
          · simp
          · intro b hb h
            have := hlt b (hl b hb)
            have h' : b ≤ (x ++ y).foldr min a - 1 := by simpa using h
            linarith
        dsimp only
        rw [h1, h2, hz x fun b hb => List.mem_append_left _ hb, hz y fun b hb => List.mem_append_right _ hb]
      · rw [← List.map_append] at hu
        obtain ⟨v, -, rfl⟩ := List.mem_map.1 hu
        refine ⟨v, ?_⟩
        dsimp only
        rw [h1, h2, he, he]
    · rintro ⟨t, rfl⟩
      exact ⟨f t, by dsimp only; rw [he, he]⟩

/-- Samples without overlap: the statistic is 1. -/
example : ksTest [1, 2] [3] = some 1 := by
  rw [some_of_ne _ _ (by simp) (by simp)]
  have h := (C131_largest_difference [1, 2] [3]).2 _ (some_of_ne _ _ (by simp) (by simp))
  have h1 := h.2 ⟨2, rfl⟩
  have h2 := ((C131_symmetries [1, 2] [3]).2.2.2 _ (some_of_ne _ _ (by simp) (by simp))).2.1
  have e1 : ecdf [1, 2] 2 = 1 := by
    unfold ecdf
    rw [List.filter_eq_self.2 (by intro a ha; simp at ha; rcases ha with rfl | rfl <;> simp)]
    norm_num
  have e2 : ecdf [3] 2 = 0 := by
    unfold ecdf
    rw [List.filter_eq_nil_iff.2 (by intro a ha; simp at ha; subst ha; norm_num)]
    norm_num
  dsimp only at h1
  rw [e1, e2] at h1
  congr 1
  apply le_antisymm h2
  simpa using h1

end Verif.Stats
