import Verif.Stats.Model
import Mathlib.Tactic.Linarith
import Mathlib.Tactic.Positivity
import Mathlib.Tactic.FieldSimp
import Mathlib.Data.List.Sort

/-!
# Triaxiality (C44, C81, C82), collection of shape values (C83), medians (C84)
-/

namespace Verif.Stats

/-! ## C44 -/

/-- C44. For axis ratios `0 < s ≤ q ≤ 1`, `s < 1`, the triaxiality is a number in [0, 1], 0 exactly for
`q = 1` and 1 exactly for `q = s`. -/
theorem C44_range (q s : ℝ) (hs : 0 < s) (hsq : s ≤ q) (hq : q ≤ 1) (hs1 : s < 1) :
    ∃ t, triaxiality (some q) (some s) = .fin t ∧ 0 ≤ t ∧ t ≤ 1 ∧ (t = 0 ↔ q = 1) ∧ (t = 1 ↔ q = s) := by
  have h1 : 0 < 1 - s ^ 2 := by nlinarith
  have h2 : 0 ≤ 1 - q ^ 2 := by nlinarith
  refine ⟨(1 - q ^ 2) / (1 - s ^ 2), by simp only [triaxiality, npDiv, if_neg h1.ne'],
    div_nonneg h2 h1.le, (div_le_one h1).2 (by nlinarith), ?_, ?_⟩
  · rw [div_eq_zero_iff, or_iff_left h1.ne']
    constructor
    · intro h; nlinarith
    · rintro rfl; norm_num
  · rw [div_eq_one_iff_eq h1.ne']
    constructor
    · intro h; nlinarith
    · rintro rfl; rfl

example : (0 : ℝ) < 1 / 2 ∧ (1 / 2 : ℝ) ≤ 3 / 4 ∧ (3 / 4 : ℝ) ≤ 1 ∧ (1 / 2 : ℝ) < 1 := by norm_num

/-- C44. Unclassified objects have no triaxiality. -/
theorem C44_nan (q s : Option ℝ) (h : q = none ∨ s = none) : triaxiality q s = .nan := by
  rcases h with rfl | rfl
  · rfl
  · cases q <;> rfl

/-! ## C81 -/

/-- C81 is false: every oblate object (`q = 1 > s`, triaxiality 0) is dropped from the histogram and from
the printed average, as if it had not been classified. -/
theorem C81_oblate_refuted (big s : ℝ) (hs : 0 < s) (hs1 : s < 1) :
    triaxiality (some 1) (some s) = .fin 0 ∧ globalT big (some 1) (some s) = none ∧
      globalT big (some 1) (some s) = globalT big none none := by
  have h1 : (1 : ℝ) - s ^ 2 ≠ 0 := by nlinarith
  have h : triaxiality (some 1) (some s) = .fin 0 := by
    simp [triaxiality, npDiv, if_neg h1]
  have h' : globalT big (some 1) (some s) = none := by
    unfold globalT; rw [h]; simp [histValue, nanToNum]
  refine ⟨h, h', ?_⟩
  rw [h']
  simp [globalT, triaxiality, histValue, nanToNum]

/-- Part of C81 which holds: all other objects enter with their triaxiality, and unclassified objects
do not enter. -/
theorem C81_others_partial (big : ℝ) :
    (∀ q s : ℝ, 0 < s → s ≤ q → q < 1 →
      globalT big (some q) (some s) = some ((1 - q ^ 2) / (1 - s ^ 2))) ∧
    globalT big none none = none := by
  constructor
  · intro q s hs hsq hq
    have h1 : 0 < 1 - s ^ 2 := by nlinarith
    have h2 : 0 < 1 - q ^ 2 := by nlinarith
    have h3 : (1 - q ^ 2) / (1 - s ^ 2) ≠ 0 := (div_pos h2 h1).ne'
    simp only [globalT, triaxiality, npDiv, if_neg h1.ne', histValue, nanToNum, if_neg h3]
  · simp [globalT, triaxiality, histValue, nanToNum]

/-! ## `np.argmin` -/

/-- With a NaN, `np.argmin` points at a NaN. -/
theorem argmin_nan {l : List (Option ℝ)} (h : none ∈ l) : l[argmin l]? = some none := by
  classical
  unfold argmin
  rw [if_pos h]
  have hlt : l.findIdx (fun x => decide (x = none)) < l.length :=
    List.findIdx_lt_length_of_exists ⟨none, h, by simp⟩
  have := List.findIdx_getElem (w := hlt)
  rw [decide_eq_true_eq] at this
  rw [List.getElem?_eq_getElem (by convert hlt)]
  exact congrArg some this

/-- A finite list has a least element. -/
theorem exists_least (l : List ℝ) (h : l ≠ []) : ∃ a ∈ l, ∀ b ∈ l, a ≤ b := by
  induction l with
  | nil => exact absurd rfl h
  | cons x l ih =>
    by_cases hl : l = []
    · subst hl; exact ⟨x, by simp, by simp⟩
    · obtain ⟨a, ha, hal⟩ := ih hl
      rcases le_total x a with hxa | hxa
      · exact ⟨x, by simp, by simpa using fun b hb => hxa.trans (hal b hb)⟩
      · exact ⟨a, by simp [ha], by simpa using ⟨hxa, hal⟩⟩

/-- Without NaN, `np.argmin` points at a least value. -/
theorem argmin_min (l : List ℝ) (h : l ≠ []) :
    ∃ a, l[argmin (l.map some)]? = some a ∧ ∀ b ∈ l, a ≤ b := by
  classical
  unfold argmin
  rw [if_neg (by simp)]
  obtain ⟨a, ha, hal⟩ := exists_least l h
  set p : Option ℝ → Bool := fun x => decide (∀ y ∈ l.map some, ∀ a b, x = some a → y = some b → a ≤ b)
    with hp
  have hpa : ∀ c, p (some c) = true ↔ ∀ b ∈ l, c ≤ b := by
    intro c
    rw [hp]
    simp only [decide_eq_true_eq, List.mem_map, Option.some.injEq]
    constructor
    · intro h b hb; exact h _ ⟨b, hb, rfl⟩ _ _ rfl rfl
    · rintro h _ ⟨b, hb, rfl⟩ c' b' rfl hbb
      rw [← Option.some.inj hbb]; exact h b hb
  have hlt : (l.map some).findIdx p < (l.map some).length :=
    List.findIdx_lt_length_of_exists ⟨some a, List.mem_map_of_mem ha, (hpa a).2 hal⟩
  have hget := List.findIdx_getElem (w := hlt)
  rw [List.getElem_map, hpa] at hget
  rw [List.length_map] at hlt
  refine ⟨_, ?_, hget⟩
  rw [List.getElem?_eq_getElem (by convert hlt)]

/-- If one entry is strictly below all others, `np.argmin` finds it. -/
theorem argmin_unique (l : List ℝ) (k : Nat) (hk : k < l.length)
    (h : ∀ j (hj : j < l.length), j ≠ k → l[k] < l[j]) : argmin (l.map some) = k := by
  obtain ⟨a, ha, hal⟩ := argmin_min l (by rintro rfl; simp at hk)
  obtain ⟨hlt, he⟩ := List.getElem?_eq_some_iff.1 ha
  by_contra hne
  have h1 := h _ hlt hne
  have h2 := hal _ (List.getElem_mem hk)
  rw [he] at h1
  exact absurd h2 (not_le.2 h1)

/-! ## C82 -/

/-- C82 is false: an object which could not be classified at a single radius, however far from the
requested depth, is dropped from the local triaxiality histogram. -/
theorem C82_local_triaxiality_refuted (big : ℝ) (d q s : List (Option ℝ)) (r200 frac : ℝ)
    (hnan : ∀ k : Nat, d[k]? = some none → q[k]? = some none)
    (h : none ∈ d) : localT big d q s r200 frac = none := by
  unfold localT
  have h1 : (none : Option ℝ) ∈ d.map fun x => x.map fun x => |x - r200 * frac| :=
    List.mem_map.2 ⟨none, h, rfl⟩
  have h2 := argmin_nan h1
  simp only
  set idx := argmin (d.map fun x => x.map fun x => |x - r200 * frac|)
  rw [List.getElem?_map] at h2
  have h3 : d[idx]? = some none := by
    cases hd : d[idx]? with
    | none => rw [hd] at h2; simp at h2
    | some x =>
      rw [hd] at h2
      cases x with
      | none => rfl
      | some x => simp at h2
  rw [hnan _ h3]
  simp [triaxiality, histValue, nanToNum]

/-- An object classified exactly at the requested depth but not at the innermost radius. -/
example (big : ℝ) : localT big [none, some 1] [none, some (1 / 2)] [none, some (1 / 4)] 1 1 = none :=
  C82_local_triaxiality_refuted big _ _ _ 1 1
    (by intro k; rcases k with _ | _ | k <;> simp) (by simp)

/-- Part of C82 which holds: if the object was classified at all radii, the values at a radius closest to
the requested depth are used. -/
theorem C82_classified_everywhere_partial (big : ℝ) (d : List ℝ) (q s : List (Option ℝ)) (r200 frac : ℝ)
    (hd : d ≠ []) :
    ∃ (k : Nat) (x : ℝ), d[k]? = some x ∧ (∀ y ∈ d, |x - r200 * frac| ≤ |y - r200 * frac|) ∧
      localT big (d.map some) q s r200 frac = globalT big (q[k]?.join) (s[k]?.join) := by
  obtain ⟨a, ha, hal⟩ := argmin_min (d.map fun x => |x - r200 * frac|) (by simpa using hd)
  have e : (d.map fun x => |x - r200 * frac|).map some =
      (d.map some).map fun x => x.map fun x => |x - r200 * frac| := by
    simp only [List.map_map]; rfl
  rw [e, List.getElem?_map] at ha
  obtain ⟨x, hx, rfl⟩ := Option.map_eq_some_iff.1 ha
  exact ⟨_, x, hx, fun y hy => hal _ (List.mem_map.2 ⟨y, hy, rfl⟩), rfl⟩

/-! ## C83 -/

/-- Every recorded radius of the object is, in units of `r200`, closer to the radius it was computed for
than to any other one (it is equal up to rounding). -/
def OnGrid (rs : List ℝ) (row : ShapeRow) : Prop :=
  row.d.length = rs.length ∧ row.par.length = rs.length ∧
  ∀ k (hk : k < rs.length) v, row.par[k]? = some (some v) → ∃ x, row.d[k]? = some (some x) ∧
    ∀ j (hj : j < rs.length), j ≠ k → |rs[k] - x / row.r200| < |rs[j] - x / row.r200|

/-- Inner loop of `getShape`. -/
theorem shapeStep_eq (rs : List ℝ) (row : ShapeRow) (h : OnGrid rs row) (y : List (List ℝ)) (k : Nat)
    (hk : k < rs.length) :
    shapeStep rs row y k = y.modify k (· ++ (row.par[k]?.join).toList) := by
  obtain ⟨hd, hp, hg⟩ := h
  unfold shapeStep
  have hpk : row.par[k]? = some (row.par[k]'(by omega)) := List.getElem?_eq_getElem (by omega)
  cases hv : row.par[k]'(by omega) with
  | none =>
    rw [hpk, hv]
    simp only [Option.join_some, Option.toList_none, List.append_nil]
    exact (List.modify_id k y).symm
  | some v =>
    obtain ⟨x, hx, hmin⟩ := hg k hk v (by rw [hpk, hv])
    rw [hpk, hv, hx]
    simp only [Option.join_some, Option.toList_some, push]
    congr 1
    unfold closest
    have e : (rs.map fun r => (Option.map (· / row.r200) (some x)).map fun x => |r - x|) =
        (rs.map fun r => |r - x / row.r200|).map some := by
      simp only [List.map_map]; rfl
    rw [e]
    refine argmin_unique _ _ (by simpa using hk) ?_
    intro j hj hne
    rw [List.length_map] at hj
    simp only [List.getElem_map]
    exact hmin j hj hne

/-- Inner loop of `getShape`: entry `k` is extended by the value at `k`. -/
theorem shapeLoop_getElem? (rs : List ℝ) (row : ShapeRow) (h : OnGrid rs row) (n : Nat)
    (hn : n ≤ rs.length) (y : List (List ℝ)) (k : Nat) :
    ((List.range n).foldl (shapeStep rs row) y)[k]? =
      (y[k]?).map fun l => if k < n then l ++ (row.par[k]?.join).toList else l := by
  induction n with
  | zero => simp
  | succ n ih =>
    rw [List.range_succ, List.foldl_append, List.foldl_cons, List.foldl_nil,
      shapeStep_eq rs row h _ n (by omega), List.getElem?_modify, ih (by omega)]
    by_cases hk : k = n
    · subst hk
      cases y[k]? <;> simp
    · cases y[k]? with
      | none => simp
      | some l =>
        have : (k < n + 1) ↔ (k < n) := by omega
        simp only [Option.map_some, if_neg (Ne.symm hk), this]
        simp

/-- C83. The values averaged at radius number `k` are exactly those of the objects classified there, in
catalogue order. -/
theorem C83_values (rs : List ℝ) (rows : List ShapeRow) (h : ∀ row ∈ rows, OnGrid rs row) (k : Nat)
    (hk : k < rs.length) :
    (collectShape rs rows)[k]? = some (rows.filterMap fun row => row.par[k]?.join) := by
  have key : ∀ (rows : List ShapeRow) (y : List (List ℝ)), (∀ row ∈ rows, OnGrid rs row) →
      (rows.foldl (fun y row => (List.range rs.length).foldl (shapeStep rs row) y) y)[k]? =
        (y[k]?).map (· ++ rows.filterMap fun row => row.par[k]?.join) := by
    intro rows
    induction rows with
    | nil => intro y _; simp
    | cons row rows ih =>
      intro y hy
      rw [List.foldl_cons, ih _ (fun r hr => hy r (List.mem_cons_of_mem _ hr)),
        shapeLoop_getElem? rs row (hy row List.mem_cons_self) _ le_rfl]
      cases y[k]? with
      | none => rfl
      | some l =>
        simp only [Option.map_some, if_pos hk, List.filterMap_cons, List.append_assoc]
        cases row.par[k]?.join <;> simp
  unfold collectShape
  rw [key rows _ h, List.getElem?_map, List.getElem?_eq_getElem hk]
  simp

/-- A row with exact radii is on the grid. -/
theorem onGrid_of_exact (rs : List ℝ) (hnd : rs.Nodup) (row : ShapeRow) (hr : row.r200 ≠ 0)
    (hd : row.d.length = rs.length) (hp : row.par.length = rs.length)
    (h : ∀ k (hk : k < rs.length) v, row.par[k]? = some (some v) →
      row.d[k]? = some (some (row.r200 * rs[k]))) : OnGrid rs row := by
  refine ⟨hd, hp, fun k hk v hv => ⟨_, h k hk v hv, fun j hj hne => ?_⟩⟩
  rw [mul_div_cancel_left₀ _ hr, sub_self, abs_zero, abs_pos, sub_ne_zero]
  intro e
  exact hne ((List.Nodup.getElem_inj_iff hnd).1 e)

/-- An object with radii 2 and 4 (`r200 = 2`), unclassified at the second one. -/
example : OnGrid [1, 2] ⟨[some 2, none], [some (1 / 2), none], 2⟩ := by
  refine onGrid_of_exact _ (by simp) _ (by norm_num) rfl rfl ?_
  intro k hk v hv
  rcases k with _ | _ | k
  · simp
  · simp at hv
  · simp at hk

/-! ## C84 -/

/-- Sorted values. -/
theorem sort_pairwise (z : List ℝ) : (z.mergeSort fun a b => decide (a ≤ b)).Pairwise (· ≤ ·) := by
  have := List.pairwise_mergeSort (le := fun a b : ℝ => decide (a ≤ b))
    (fun a b c h1 h2 => by simp only [decide_eq_true_eq] at *; exact h1.trans h2)
    (fun a b => by simp only [Bool.or_eq_true, decide_eq_true_eq]; exact le_total a b) z
  exact this.imp fun h => by simpa using h

/-- C84. The median does not depend on the order of the values. -/
theorem C84_order (z z' : List ℝ) (h : z.Perm z') : median z = median z' := by
  have e : (z.mergeSort fun a b => decide (a ≤ b)) = z'.mergeSort fun a b => decide (a ≤ b) := by
    refine List.Perm.eq_of_pairwise (le := (· ≤ ·)) (fun a b _ _ => le_antisymm) (sort_pairwise z)
      (sort_pairwise z') ?_
    exact (List.mergeSort_perm z _).trans (h.trans (List.mergeSort_perm z' _).symm)
  unfold median
  rw [e]
  by_cases hz : z = []
  · subst hz; rw [List.nil_perm.1 h]
  · have hz' : z' ≠ [] := by rintro rfl; exact hz (List.perm_nil.1 h)
    rw [if_neg hz, if_neg hz']

/-- C84. The median exists exactly for non-empty samples; at least half of the values do not exceed it
and at least half are not below it. -/
theorem C84_halves (z : List ℝ) :
    (median z = none ↔ z = []) ∧
    ∀ md, median z = some md →
      z.length ≤ 2 * z.countP (fun x => decide (x ≤ md)) ∧
      z.length ≤ 2 * z.countP (fun x => decide (md ≤ x)) := by
  by_cases hz : z = []
  · subst hz; simp [median]
  have hperm := List.mergeSort_perm z fun a b => decide (a ≤ b)
  have hs := sort_pairwise z
  have hlen := hperm.length_eq
  have hpos : 0 < z.length := List.length_pos_iff.2 hz
  unfold median
  rw [if_neg hz]
  simp only
  set s := z.mergeSort fun a b => decide (a ≤ b) with hsdef
  have hcount : ∀ p : ℝ → Bool, z.countP p = s.countP p := fun p => (hperm.countP_eq p).symm
  -- counting in a sorted list
  have hlow : ∀ k (hk : k < s.length) md, s[k] ≤ md → k + 1 ≤ s.countP fun x => decide (x ≤ md) := by
    intro k hk md hmd
    have h1 : (s.take (k + 1)).countP (fun x => decide (x ≤ md)) = (s.take (k + 1)).length := by
      rw [List.countP_eq_length]
      intro x hx
      obtain ⟨i, hi, rfl⟩ := List.mem_take_iff_getElem.1 hx
      rw [decide_eq_true_eq]
      refine le_trans ?_ hmd
      rcases Nat.lt_or_eq_of_le (show i ≤ k by omega) with hlt | rfl
      · exact List.pairwise_iff_getElem.1 hs _ _ _ _ hlt
      · exact le_rfl
    have h2 := (List.take_sublist (k + 1) s).countP_le (p := fun x => decide (x ≤ md))
    rw [h1, List.length_take] at h2
    omega
  have hhigh : ∀ k (hk : k < s.length) md, md ≤ s[k] →
      s.length - k ≤ s.countP fun x => decide (md ≤ x) := by
    intro k hk md hmd
    have h1 : (s.drop k).countP (fun x => decide (md ≤ x)) = (s.drop k).length := by
      rw [List.countP_eq_length]
      intro x hx
      obtain ⟨i, hi, rfl⟩ := List.mem_drop_iff_getElem.1 hx
      rw [decide_eq_true_eq]
      refine le_trans hmd ?_
      rcases Nat.eq_zero_or_pos i with rfl | hpos
      · simp
      · exact List.pairwise_iff_getElem.1 hs _ _ _ _ (by omega)
    have h2 := (List.drop_sublist k s).countP_le (p := fun x => decide (md ≤ x))
    rw [h1, List.length_drop] at h2
    exact h2
  have hmono : ∀ i j (hi : i < s.length) (hj : j < s.length), i ≤ j → s[i] ≤ s[j] := by
    intro i j hi hj hij
    rcases Nat.lt_or_eq_of_le hij with hlt | rfl
    · exact List.pairwise_iff_getElem.1 hs _ _ _ _ hlt
    · exact le_rfl
  have hmid : s.length / 2 < s.length := by omega
  by_cases hodd : s.length % 2 = 1
  · rw [if_pos hodd, List.getElem?_eq_getElem hmid]
    refine ⟨by simp [hz], ?_⟩
    rintro md he
    obtain rfl := Option.some.inj he
    rw [hcount, hcount]
    have h1 := hlow _ hmid _ le_rfl
    have h2 := hhigh _ hmid _ le_rfl
    omega
  · have hmid' : s.length / 2 - 1 < s.length := by omega
    rw [if_neg hodd, List.getElem?_eq_getElem hmid, List.getElem?_eq_getElem hmid']
    refine ⟨by simp [hz], ?_⟩
    rintro md he
    have he' : (s[s.length / 2 - 1] + s[s.length / 2]) / 2 = md := Option.some.inj he
    subst he'
    have h12 := hmono _ _ hmid' hmid (by omega)
    rw [hcount, hcount]
    have h1 := hlow _ hmid' ((s[s.length / 2 - 1] + s[s.length / 2]) / 2) (by linarith)
    have h2 := hhigh _ hmid ((s[s.length / 2 - 1] + s[s.length / 2]) / 2) (by linarith)
    omega

example : median [3, 1] = some 2 := by
  have : ([3, 1] : List ℝ).mergeSort (fun a b => decide (a ≤ b)) = [1, 3] := by
    refine List.Perm.eq_of_pairwise (le := (· ≤ ·)) (fun a b _ _ => le_antisymm) (sort_pairwise _)
      (by norm_num) ?_
    exact (List.mergeSort_perm _ _).trans (List.Perm.swap _ _ _)
  unfold median
  rw [this, if_neg (by simp)]
  norm_num

end Verif.Stats
