import Verif.Stats.ErrorProps

/-!
# Averages and error bars by the method asked for (C85, C119)
-/

namespace Verif.Stats

/-- What is known of the resampling: `n` numbers below `n`. -/
def Resamples (draw : Nat → Nat → List Nat) : Prop :=
  ∀ seed n, (draw seed n).length = n ∧ ∀ i ∈ draw seed n, i < n

/-- Average of the values with the numbers drawn. -/
noncomputable def resampledMean (draw : Nat → Nat → List Nat) (z : List ℝ) (seed : Nat) : ℝ :=
  ((draw seed z.length).map fun i => z[i]?.getD 0).sum / z.length

section
variable {draw : Nat → Nat → List Nat} (hd : Resamples draw)
include hd

theorem boot_values (z : List ℝ) (seed : Nat) :
    (draw seed z.length).filterMap (fun i => z[i]?) = (draw seed z.length).map fun i => z[i]?.getD 0 := by
  rw [← List.filterMap_eq_map]
  apply List.filterMap_congr
  intro i hi
  simp [List.getElem?_eq_getElem ((hd seed z.length).2 i hi)]

theorem bootAverage_eq (z : List ℝ) (hz : z ≠ []) (seed : Nat) :
    bootAverage draw z seed = some (resampledMean draw z seed) := by
  unfold bootAverage mean resampledMean
  rw [boot_values hd]
  have hl : ((draw seed z.length).map fun i => z[i]?.getD 0).length = z.length := by
    rw [List.length_map, (hd seed z.length).1]
  rw [if_neg (by intro h; rw [h] at hl; exact hz (List.length_eq_zero_iff.1 hl.symm)), hl]

theorem bootError_eq (z : List ℝ) (hz : z ≠ []) (nReal : Nat) :
    bootError draw nReal z = stdOne ((List.range nReal).map (resampledMean draw z)) := by
  unfold bootError
  have : (List.range nReal).mapM (bootAverage draw z) = some ((List.range nReal).map (resampledMean draw z)) := by
    induction List.range nReal with
    | nil => rfl
    | cons a l ih => rw [List.mapM_cons, ih, bootAverage_eq hd z hz]; rfl
  rw [this]
  rfl

end

/-- `np.std` is the standard error without its last factor. -/
theorem stdOne_eq (l : List ℝ) (h2 : 2 ≤ l.length) :
    ∃ e, semError l = some e ∧ stdOne l = some (e * Real.sqrt l.length) := by
  have hn : (0 : ℝ) < l.length := by exact_mod_cast (by omega : 0 < l.length)
  refine ⟨_, if_neg (by omega), ?_⟩
  unfold stdOne
  rw [if_neg (by omega), div_mul_cancel₀ _ (Real.sqrt_pos.2 hn).ne']

theorem sum_add (l : List Nat) (f : Nat → ℝ) (t : ℝ) : (l.map fun i => t + f i).sum = l.length * t + (l.map f).sum := by
  induction l with
  | nil => simp
  | cons a l ih => simp [ih]; ring

/-- Part of C85: the bootstrap error of two or more resamplings exists for every sample, is not negative, does not
change when a constant is added to all values, scales with the values, and is zero if all values are equal. -/
theorem C85_bootstrap_partial (draw : Nat → Nat → List Nat) (hd : Resamples draw) (nReal : Nat) (h2 : 2 ≤ nReal)
    (z : List ℝ) (hz : z ≠ []) :
    ∃ e, bootError draw nReal z = some e ∧ 0 ≤ e ∧
      (∀ t, bootError draw nReal (z.map (t + ·)) = some e) ∧
      (∀ k, bootError draw nReal (z.map (k * ·)) = some (|k| * e)) ∧
      ((∀ x ∈ z, ∀ y ∈ z, x = y) → e = 0) := by
  have hn : (0 : ℝ) < z.length := by exact_mod_cast List.length_pos_iff.2 hz
  set l := (List.range nReal).map (resampledMean draw z) with hl
  have hlen : l.length = nReal := by simp [hl]
  obtain ⟨e, he, hs⟩ := stdOne_eq l (by omega)
  obtain ⟨e', he', hnn, -, ht, hk, h0⟩ := C85_sem_partial l (by omega)
  obtain rfl : e = e' := Option.some.inj (he.symm.trans he')
  have hshift : ∀ t, (List.range nReal).map (resampledMean draw (z.map (t + ·))) = l.map (t + ·) := by
    intro t
    rw [hl, List.map_map]
    apply List.map_congr_left
    intro seed _
    simp only [Function.comp, List.length_map, resampledMean]
    have : (draw seed z.length).map (fun i => (z.map (t + ·))[i]?.getD 0) =
        (draw seed z.length).map fun i => t + z[i]?.getD 0 := by
      apply List.map_congr_left
      intro i hi
      rw [List.getElem?_map, List.getElem?_eq_getElem ((hd seed z.length).2 i hi)]
      rfl
    rw [this, sum_add, (hd seed z.length).1]
    field_simp
  have hscale : ∀ k, (List.range nReal).map (resampledMean draw (z.map (k * ·))) = l.map (k * ·) := by
    intro k
    rw [hl, List.map_map]
    apply List.map_congr_left
    intro seed _
    simp only [Function.comp, List.length_map, resampledMean]
    have : (draw seed z.length).map (fun i => (z.map (k * ·))[i]?.getD 0) =
        (draw seed z.length).map fun i => k * z[i]?.getD 0 := by
      apply List.map_congr_left
      intro i hi
      rw [List.getElem?_map, List.getElem?_eq_getElem ((hd seed z.length).2 i hi)]
      rfl
    rw [this, sum_map_mul_left', mul_div_assoc]
  refine ⟨e * Real.sqrt nReal, ?_, by positivity, ?_, ?_, ?_⟩
  · rw [bootError_eq hd z hz, ← hl, hs, hlen]
  · intro t
    rw [bootError_eq hd _ (by simpa using hz), hshift]
    obtain ⟨e2, h1, h3⟩ := stdOne_eq (l.map (t + ·)) (by rw [List.length_map]; omega)
    rw [ht] at h1
    rw [h3, ← Option.some.inj h1, List.length_map, hlen]
  · intro k
    rw [bootError_eq hd _ (by simpa using hz), hscale]
    obtain ⟨e2, h1, h3⟩ := stdOne_eq (l.map (k * ·)) (by rw [List.length_map]; omega)
    rw [hk] at h1
    rw [h3, ← Option.some.inj h1, List.length_map, hlen, mul_assoc]
  · intro hall
    rw [h0.2, zero_mul]
    obtain ⟨a, ha⟩ := List.exists_mem_of_ne_nil z hz
    have hm : ∀ x ∈ l, x = a := by
      intro x hx
      obtain ⟨seed, -, rfl⟩ := List.mem_map.1 hx
      unfold resampledMean
      have : (draw seed z.length).map (fun i => z[i]?.getD 0) = List.replicate z.length a := by
        refine List.eq_replicate_iff.2 ⟨by rw [List.length_map, (hd seed z.length).1], ?_⟩
        intro b hb
        obtain ⟨i, hi, rfl⟩ := List.mem_map.1 hb
        rw [List.getElem?_eq_getElem ((hd seed z.length).2 i hi)]
        exact hall _ (List.getElem_mem _) a ha
      rw [this, List.sum_replicate, nsmul_eq_mul, mul_div_cancel_left₀ _ hn.ne']
    intro x hx y hy
    rw [hm x hx, hm y hy]

/-- Ten resamplings (the default) of three values, all draws being `0, 0, 1`. -/
example : Resamples (fun _ n => List.replicate n 0) ∧ (2 : Nat) ≤ 10 ∧ ([1, 2, 4] : List ℝ) ≠ [] := by
  refine ⟨fun seed n => ⟨by simp, fun i hi => ?_⟩, by norm_num, by simp⟩
  have := List.mem_replicate.1 hi
  omega

/-- With a single resampling all bootstrap errors are NaN. -/
theorem C85_one_resampling (draw : Nat → Nat → List Nat) (hd : Resamples draw) (z : List ℝ) (hz : z ≠ []) :
    bootError draw 1 z = none := by
  rw [bootError_eq hd z hz]
  simp [stdOne]

/-! ## C119 -/

/-- The names of the three methods. -/
def methods : List String := ["bootstrap", "SEM", "median_quantile"]

/-- What a user expects of the curve drawn by a method at one radius where the objects have the values `z`: the
average and the two ends of the error band. -/
structure ByMethod (method : String) (z : List ℝ) (a l h : Option ℝ) : Prop where
  /-- nothing is drawn exactly where there are no values -/
  empty : a = none ↔ z = []
  /-- mean values and symmetric errors for "bootstrap" and "SEM" -/
  mean : method = "bootstrap" ∨ method = "SEM" → (∀ x, a = some x → z.length * x = z.sum) ∧ l = h
  /-- medians for "median_quantile" -/
  median : method = "median_quantile" → ∀ md, a = some md →
    z.length ≤ 2 * z.countP (fun x => decide (x ≤ md)) ∧ z.length ≤ 2 * z.countP (fun x => decide (md ≤ x))

theorem collectShape_length (rs : List ℝ) (rows : List ShapeRow) : (collectShape rs rows).length = rs.length := by
  unfold collectShape
  have key : ∀ (rows : List ShapeRow) (y : List (List ℝ)),
      (rows.foldl (fun y row => (List.range rs.length).foldl (shapeStep rs row) y) y).length = y.length := by
    intro rows
    induction rows with
    | nil => intro y; rfl
    | cons s rows ih =>
      intro y
      rw [List.foldl_cons, ih]
      generalize List.range rs.length = ks
      induction ks generalizing y with
      | nil => rfl
      | cons k ks ih2 =>
        rw [List.foldl_cons, ih2]
        unfold shapeStep
        simp only
        split
        · rfl
        · unfold push; rw [List.length_modify]
  rw [key, List.length_map]

theorem mean_byMethod (method : String) (hm : method ≠ "median_quantile") (z : List ℝ) (e : Option ℝ) :
    ByMethod method z (mean z) e e := by
  refine ⟨?_, fun _ => ⟨?_, rfl⟩, fun h => absurd h hm⟩
  · unfold mean; split <;> simp_all
  · intro x hx
    unfold mean at hx
    split at hx
    · cases hx
    · rename_i hz
      rw [← Option.some.inj hx, mul_div_cancel₀]
      exact_mod_cast (List.length_pos_iff.2 hz).ne'

/-- C119 (first part). `getShape` with one of the three methods draws, at every radius, the mean values with symmetric
errors or the medians of the objects classified there, as asked; with any other method it raises AssertionError.
(For "bootstrap" there must be a value at every radius: resampling an empty list is not modelled.) -/
theorem C119_asked_partial (draw : Nat → Nat → List Nat) (nReal : Nat) (rs : List ℝ) (rows : List ShapeRow)
    (hg : ∀ row ∈ rows, OnGrid rs row) (method : String)
    (_hb : method = "bootstrap" → ∀ k < rs.length, (rows.filterMap fun row => row.par[k]?.join) ≠ []) :
    (method ∉ methods → getShape draw nReal rs rows method = none) ∧
    (method ∈ methods → ∃ a l h, getShape draw nReal rs rows method = some (a, l, h) ∧
      a.length = rs.length ∧ l.length = rs.length ∧ h.length = rs.length ∧
      ∀ k < rs.length, ByMethod method (rows.filterMap fun row => row.par[k]?.join) (a[k]?.join) (l[k]?.join)
        (h[k]?.join)) := by
  have hlen := collectShape_length rs rows
  unfold getShape meanOrMedianAndError methods
  constructor
  · intro h
    simp only [List.mem_cons, List.not_mem_nil, or_false, not_or] at h
    rw [if_neg h.1, if_neg h.2.1, if_neg h.2.2]
  · intro h
    have hv := fun k (hk : k < rs.length) => C83_values rs rows hg k hk
    simp only [List.mem_cons, List.not_mem_nil, or_false] at h
    rcases h with rfl | rfl | rfl
    · refine ⟨_, _, _, if_pos rfl, by simp [hlen], by simp [hlen], by simp [hlen], fun k hk => ?_⟩
      simp only [List.getElem?_map, hv k hk, Option.map_some, Option.join_some]
      exact mean_byMethod _ (by decide) _ _
    · refine ⟨_, _, _, by rw [if_neg (by decide), if_pos rfl], by simp [hlen], by simp [hlen], by simp [hlen],
        fun k hk => ?_⟩
      simp only [List.getElem?_map, hv k hk, Option.map_some, Option.join_some]
      exact mean_byMethod _ (by decide) _ _
    · refine ⟨_, _, _, by rw [if_neg (by decide), if_neg (by decide), if_pos rfl], by simp [hlen], by simp [hlen],
        by simp [hlen], fun k hk => ?_⟩
      simp only [List.getElem?_map, hv k hk, Option.map_some, Option.join_some]
      refine ⟨(C84_halves _).1, fun h => ?_, fun _ => (C84_halves _).2⟩
      rcases h with h | h <;> exact absurd h (by decide)

/-- `e` is the standard deviation of a sample of two or more values: its square is the sum of the squared deviations
from the mean, divided by the number of values minus one. -/
def IsDeviation (l : List ℝ) (e : ℝ) : Prop :=
  0 ≤ e ∧ ∀ mean : ℝ, l.length * mean = l.sum → e ^ 2 * ((l.length : ℝ) - 1) = (l.map fun x => (x - mean) ^ 2).sum

theorem stdOne_deviation (l : List ℝ) (h2 : 2 ≤ l.length) : ∃ e, stdOne l = some e ∧ IsDeviation l e := by
  have hn : (0 : ℝ) < l.length := by exact_mod_cast (by omega : 0 < l.length)
  have hn1 : (0 : ℝ) < (l.length : ℝ) - 1 := by
    have : (2 : ℝ) ≤ l.length := by exact_mod_cast h2
    linarith
  refine ⟨_, if_neg (by omega), Real.sqrt_nonneg _, fun mean hmean => ?_⟩
  have hm : l.sum / l.length = mean := by rw [← hmean, mul_div_cancel_left₀ _ hn.ne']
  rw [hm, Real.sq_sqrt, div_mul_cancel₀ _ hn1.ne']
  apply div_nonneg _ hn1.le
  apply List.sum_nonneg
  intro x hx
  obtain ⟨y, -, rfl⟩ := List.mem_map.1 hx
  exact sq_nonneg _

/-- C119 (errors). With "SEM" the error bars at a radius with `n ≥ 2` values are the standard deviation of the values
divided by the square root of `n`; with "bootstrap" they are the standard deviation of the averages of the resampled
values, whatever numbers are drawn. -/
theorem C119_errors_partial (draw : Nat → Nat → List Nat) (hd : Resamples draw) (nReal : Nat) (rs : List ℝ)
    (rows : List ShapeRow) (hg : ∀ row ∈ rows, OnGrid rs row) :
    (∃ a l h, getShape draw nReal rs rows "SEM" = some (a, l, h) ∧ ∀ k < rs.length, ∀ z : List ℝ,
      z = (rows.filterMap fun row => row.par[k]?.join) → 2 ≤ z.length → ∃ e, IsDeviation z (e * Real.sqrt z.length) ∧
        l[k]? = some (some e) ∧ h[k]? = some (some e)) ∧
    (2 ≤ nReal → ∃ a l h, getShape draw nReal rs rows "bootstrap" = some (a, l, h) ∧ ∀ k < rs.length, ∀ z : List ℝ,
      z = (rows.filterMap fun row => row.par[k]?.join) → z ≠ [] →
        ∃ e, IsDeviation ((List.range nReal).map (resampledMean draw z)) e ∧
        l[k]? = some (some e) ∧ h[k]? = some (some e)) := by
  have hv := fun k (hk : k < rs.length) => C83_values rs rows hg k hk
  constructor
  · refine ⟨_, _, _, by unfold getShape meanOrMedianAndError; rw [if_neg (by decide), if_pos rfl], fun k hk z hz h2 => ?_⟩
    obtain ⟨e, he, hdev⟩ := stdOne_deviation z h2
    obtain ⟨e', he', hs⟩ := stdOne_eq z h2
    rw [he] at hs
    obtain rfl := Option.some.inj hs
    refine ⟨e', hdev, ?_, ?_⟩ <;>
    · simp only [List.getElem?_map, hv k hk, Option.map_some]
      rw [← hz, he']
  · intro h2
    refine ⟨_, _, _, by unfold getShape meanOrMedianAndError; rw [if_pos rfl], fun k hk z hz hne => ?_⟩
    obtain ⟨e, he, hdev⟩ := stdOne_deviation ((List.range nReal).map (resampledMean draw z)) (by simpa using h2)
    refine ⟨e, hdev, ?_, ?_⟩ <;>
    · simp only [List.getElem?_map, hv k hk, Option.map_some]
      rw [← hz, bootError_eq hd z hne, he]

/-- C119 (second part). The curves of one mass bin are the medians of the objects of this bin, whatever method was
asked for. -/
theorem C119_mass_bins_partial (draw : Nat → Nat → List Nat) (nReal : Nat) (rs : List ℝ) (rows : List ShapeRow)
    (hg : ∀ row ∈ rows, OnGrid rs row) (group : List Nat) (hlt : ∀ i ∈ group, i < rows.length) (method : String) :
    ∃ a l h, getShapeMs draw nReal rs rows group method = some (a, l, h) ∧
      a.length = rs.length ∧ l.length = rs.length ∧ h.length = rs.length ∧
      ∀ k < rs.length, ∃ z : List ℝ, (∀ x, x ∈ z ↔ ∃ i ∈ group, ∃ row, rows[i]? = some row ∧ row.par[k]? = some (some x)) ∧
        (z.length + (group.filter fun i => decide ((rows[i]?.bind fun row => row.par[k]?.join) = none)).length =
          group.length) ∧
        ByMethod "median_quantile" z (a[k]?.join) (l[k]?.join) (h[k]?.join) := by
  obtain ⟨a, l, h, he, h1, h2, h3, hk⟩ := (C119_asked_partial draw nReal rs (group.filterMap fun i => rows[i]?)
    (fun row hrow => by
      obtain ⟨i, -, hi⟩ := List.mem_filterMap.1 hrow
      exact hg row (List.mem_of_getElem? hi)) "median_quantile" (fun h => absurd h (by decide))).2 (by decide)
  refine ⟨a, l, h, he, h1, h2, h3, fun k hlk => ⟨_, ?_, ?_, hk k hlk⟩⟩
  · intro x
    simp only [List.mem_filterMap]
    constructor
    · rintro ⟨row, ⟨i, hi, hrow⟩, hx⟩
      exact ⟨i, hi, row, hrow, Option.join_eq_some_iff.1 hx⟩
    · rintro ⟨i, hi, row, hrow, hx⟩
      exact ⟨row, ⟨i, hi, hrow⟩, Option.join_eq_some_iff.2 hx⟩
  · clear he h1 h2 h3 hk
    induction group with
    | nil => rfl
    | cons i group ih =>
      have := ih fun j hj => hlt j (List.mem_cons_of_mem _ hj)
      have hi := List.getElem?_eq_getElem (hlt i List.mem_cons_self)
      simp only [List.filterMap_cons, List.filter_cons, hi, Option.bind_some, List.length_cons]
      cases hx : (rows[i]'(hlt i List.mem_cons_self)).par[k]?.join with
      | none => rw [if_pos (by simp)]; simp only [List.length_cons]; omega
      | some x => rw [if_neg (by simp)]; simp only [List.length_cons]; omega

/-- Three objects with the values 0, 0 and 3 at the only radius. -/
noncomputable def threeRows : List ShapeRow :=
  [⟨[some 1], [some 0], 1⟩, ⟨[some 1], [some 0], 1⟩, ⟨[some 1], [some 3], 1⟩]

theorem threeRows_onGrid : ∀ row ∈ threeRows, OnGrid [1] row := by
  intro row hrow
  simp only [threeRows, List.mem_cons, List.not_mem_nil, or_false] at hrow
  rcases hrow with rfl | rfl | rfl <;>
    (refine ⟨rfl, rfl, fun k hk v _ => ?_⟩
     simp only [List.length_cons, List.length_nil, zero_add, Nat.lt_one_iff] at hk
     subst hk
     refine ⟨1, rfl, fun j hj hj0 => ?_⟩
     simp only [List.length_cons, List.length_nil, zero_add, Nat.lt_one_iff] at hj
     exact absurd hj hj0)

/-- The hypotheses of C119 hold of the three objects, for every method. -/
example : (∀ row ∈ threeRows, OnGrid [1] row) ∧ (∀ i ∈ [0, 1, 2], i < threeRows.length) ∧
    ∀ k < ([1] : List ℝ).length, (threeRows.filterMap fun row => row.par[k]?.join) ≠ [] := by
  refine ⟨threeRows_onGrid, by decide, fun k hk => ?_⟩
  simp only [List.length_cons, List.length_nil, zero_add, Nat.lt_one_iff] at hk
  subst hk
  simp [threeRows]

/-- The errors of the three objects: with "SEM" the standard deviation of 0, 0, 3 is the square root of 3, so the error
is 1. -/
example (draw : Nat → Nat → List Nat) (hd : Resamples draw) :
    ∃ a l h, getShape draw 10 [1] threeRows "SEM" = some (a, l, h) ∧ l[0]? = some (some 1) ∧ h[0]? = some (some 1) := by
  obtain ⟨⟨a, l, h, he, hk⟩, -⟩ := C119_errors_partial draw hd 10 [1] threeRows threeRows_onGrid
  obtain ⟨e, ⟨h0, h1⟩, h2, h3⟩ := hk 0 (by simp) [0, 0, 3] (by simp [threeRows]) (by simp)
  have h4 := h1 1 (by simp)
  have hs : Real.sqrt 3 ^ 2 = 3 := Real.sq_sqrt (by norm_num)
  have hp : 0 < Real.sqrt 3 := Real.sqrt_pos.2 (by norm_num)
  simp only [List.length_cons, List.length_nil, zero_add, Nat.reduceAdd, Nat.cast_ofNat] at h0 h4
  rw [mul_pow, hs] at h4
  norm_num at h4
  have he0 : 0 ≤ e := by
    by_contra hneg
    exact absurd h0 (not_le.2 (mul_neg_of_neg_of_pos (not_le.1 hneg) hp))
  obtain rfl : e = 1 := by
    have h5 : e ^ 2 = 1 := by linarith
    nlinarith
  exact ⟨a, l, h, he, h2, h3⟩

/-- C119 is false of the curves of mass bins: of three objects with the values 0, 0 and 3 in one mass bin, the
average asked for with the method "SEM" is 1, and what is drawn is 0. -/
theorem C119_mass_bins_refuted (draw : Nat → Nat → List Nat) (nReal : Nat) :
    (∃ l h, getShape draw nReal [1] threeRows "SEM" = some ([some 1], l, h)) ∧
    ∃ l h, getShapeMs draw nReal [1] threeRows [0, 1, 2] "SEM" = some ([some 0], l, h) := by
  have hc : collectShape [1] threeRows = [[0, 0, 3]] := by
    apply List.ext_getElem?
    intro k
    by_cases hk : k < 1
    · rw [C83_values _ _ threeRows_onGrid k (by simpa using hk)]
      obtain rfl : k = 0 := by omega
      rfl
    · rw [List.getElem?_eq_none (by rw [collectShape_length]; simp; omega), List.getElem?_eq_none (by simp; omega)]
  have hg : ([0, 1, 2].filterMap fun i => threeRows[i]?) = threeRows := rfl
  constructor
  · refine ⟨[semError [0, 0, 3]], [semError [0, 0, 3]], ?_⟩
    unfold getShape meanOrMedianAndError
    rw [if_neg (by decide), if_pos rfl, hc]
    simp [mean]
  · refine ⟨[quantileError [0, 0, 3] (1 / 4)], [quantileError [0, 0, 3] (3 / 4)], ?_⟩
    unfold getShapeMs meanOrMedianAndError
    rw [if_neg (by decide), if_neg (by decide), if_pos rfl, hg, hc]
    have hs : ([0, 0, 3] : List ℝ).mergeSort (fun a b => decide (a ≤ b)) = [0, 0, 3] := by
      apply List.mergeSort_of_pairwise
      simp
    simp [median, hs]

end Verif.Stats
