import Verif.Stats.ChiProps
import Verif.Stats.SplitProps
import Verif.Stats.ProfileProps

/-!
# Values which the other theorems leave open (C45, C48, C69)
-/

set_option linter.unusedSectionVars false

namespace Verif.Stats

/-! ## C45: sizes of the bins -/

section
variable {K : Type} [LinearOrder K]

/-- C45. The bins are as equal as blocks can be: with `n` objects and `nb` bins all bins have `n / nb` members, rounded up, but for the last one which has what is left.  If `nb`
divides `n` there are exactly `nb` bins of equal size. -/
theorem C45_sizes {C : Type} (args : List Nat) (m : List K) (center : List C) (ha : IsArgsort args m) (nb : Nat) (hnb : 0 < nb) (sp : Split K C)
    (h : mSplit args m center (nb : Int) = some sp) :
    (∀ g ∈ sp.idxGroups, g.length ≤ (m.length + nb - 1) / nb) ∧
    (∀ i g, i + 1 < sp.idxGroups.length → sp.idxGroups[i]? = some g → g.length = (m.length + nb - 1) / nb) ∧
    ∀ k, 0 < k → m.length = nb * k → sp.idxGroups.length = nb ∧ ∀ g ∈ sp.idxGroups, g.length = k := by
  obtain ⟨hp, hsort⟩ := ha
  have hal : args.length = m.length := by rw [hp.length_eq, List.length_range]
  by_cases hm : m = []
  · subst hm
    have hs : sp = ⟨[], [], [], []⟩ := by
      unfold mSplit at h
      rw [if_neg (by omega)] at h
      simp only at h
      rw [chunkSize_eq _ _ hnb, (rangeCount_eq_zero _ _ hnb).2 (by simp)] at h
      exact (Option.some.inj h).symm
    subst hs
    refine ⟨by simp, by simp, ?_⟩
    intro k hk he
    have := Nat.mul_pos hnb hk
    simp only [List.length_nil] at he
    omega
  · obtain ⟨edges, heq, -, -, -⟩ := mSplit_eq args m center nb hnb hp hm
    have hmlen : 0 < m.length := List.length_pos_iff.2 hm
    have hc : 0 < rangeCount m.length nb := (lt_rangeCount _ _ _ hnb).2 (by omega)
    rw [heq] at h
    have h := (Option.some.inj h).symm
    subst h
    obtain ⟨bs, h1, hfl, h2, h3⟩ := (C47_blocks args).2 _ hc
    rw [getBlocks_pos _ _ hc] at h1
    have h1 := Option.some.inj h1
    simp only
    rw [h1]
    have hrc : rangeCount m.length nb = (m.length + nb - 1) / nb := rfl
    rw [← hrc]
    refine ⟨fun g hg => (h2 g hg).2, h3, ?_⟩
    intro k hk he
    have hk' : rangeCount m.length nb = k := by
      rw [hrc, he, show nb * k + nb - 1 = nb - 1 + nb * k by omega, Nat.add_mul_div_left _ _ hnb, Nat.div_eq_of_lt (by omega), Nat.zero_add]
    have hlen : bs.length = nb := by
      rw [← h1, blocks_length, hk', hal, he]
      unfold rangeCount
      rw [mul_comm, show k * nb + k - 1 = k - 1 + k * nb by omega, Nat.add_mul_div_left _ _ hk, Nat.div_eq_of_lt (by omega), Nat.zero_add]
    refine ⟨hlen, ?_⟩
    intro g hg
    rw [← h1] at hg
    obtain ⟨i, hi, rfl⟩ := List.mem_iff_getElem.1 hg
    rw [h1, hlen] at hi
    have hbi := blocks_getElem? args (rangeCount m.length nb) i (by
      have : (blocks args (rangeCount m.length nb)).length = nb := by rw [h1, hlen]
      rw [blocks_length] at this
      omega)
    have hi' : i < (blocks args (rangeCount m.length nb)).length := by rw [h1, hlen]; exact hi
    rw [List.getElem?_eq_getElem hi'] at hbi
    rw [Option.some.inj hbi, hk', List.length_take, List.length_drop, hal, he]
    have : (i + 1) * k ≤ nb * k := Nat.mul_le_mul_right k hi
    rw [Nat.succ_mul] at this
    omega

/-- Six objects in three bins, and five in two. -/
example : (mSplit [0, 1, 2, 3, 4, 5] [10, 20, 30, 40, 50, 60] ["a", "b", "c", "d", "e", "f"] 3).map (fun sp => sp.idxGroups) =
      some [[0, 1], [2, 3], [4, 5]] ∧
    (mSplit [3, 0, 2, 1, 4] [20, 40, 30, 10, 50] ["a", "b", "c", "d", "e"] 2).map (fun sp => sp.idxGroups) = some [[3, 0, 2], [1, 4]] := by
  decide

end

/-! ## C48: the transition between the slopes -/

/-- C48. The logarithmic slope of the α-β-γ model is, at every radius, minus the mean of γ and β with weights `1` and `(r / r_s) ^ α`; so it is half way between
them at the scale radius, where the density is `ρ / 2 ^ ((β - γ) / α)`. -/
theorem C48_transition (rho a b g rs : ℝ) (ha : 0 < a) (hrs : 0 < rs) :
    (∀ r, 0 < r → HasDerivAt (alphaBetaGamma rho a b g rs)
      (-((g + b * (r / rs) ^ a) / (1 + (r / rs) ^ a)) * alphaBetaGamma rho a b g rs r / r) r) ∧
    HasDerivAt (alphaBetaGamma rho a b g rs) (-((g + b) / 2) * alphaBetaGamma rho a b g rs rs / rs) rs ∧
    alphaBetaGamma rho a b g rs rs = rho / 2 ^ ((b - g) / a) := by
  have main : ∀ r, 0 < r → HasDerivAt (alphaBetaGamma rho a b g rs)
      (-((g + b * (r / rs) ^ a) / (1 + (r / rs) ^ a)) * alphaBetaGamma rho a b g rs r / r) r := by
    intro r hr
    have hx : 0 < r / rs := div_pos hr hrs
    have hxa : 0 < (r / rs) ^ a := Real.rpow_pos_of_pos hx a
    have hxg : 0 < (r / rs) ^ g := Real.rpow_pos_of_pos hx g
    have h1 : 0 < 1 + (r / rs) ^ a := by linarith
    have hD : 0 < (1 + (r / rs) ^ a) ^ ((b - g) / a) := Real.rpow_pos_of_pos h1 _
    have d0 : HasDerivAt (fun r : ℝ => r / rs) (1 / rs) r := (hasDerivAt_id r).div_const rs
    have dg : HasDerivAt (fun r : ℝ => (r / rs) ^ g) (1 / rs * g * (r / rs) ^ (g - 1)) r := d0.rpow_const (Or.inl hx.ne')
    have da : HasDerivAt (fun r : ℝ => (r / rs) ^ a) (1 / rs * a * (r / rs) ^ (a - 1)) r := d0.rpow_const (Or.inl hx.ne')
    have dD : HasDerivAt (fun r : ℝ => (1 + (r / rs) ^ a) ^ ((b - g) / a))
        (1 / rs * a * (r / rs) ^ (a - 1) * ((b - g) / a) * (1 + (r / rs) ^ a) ^ ((b - g) / a - 1)) r :=
      (da.const_add 1).rpow_const (Or.inl h1.ne')
    have dall := (hasDerivAt_const r rho).div (dg.mul dD) (mul_pos hxg hD).ne'
    have hfun : alphaBetaGamma rho a b g rs = fun r => rho / ((r / rs) ^ g * (1 + (r / rs) ^ a) ^ ((b - g) / a)) := rfl
    rw [hfun]
    refine dall.congr_deriv ?_
    simp only [Pi.mul_apply]
    rw [Real.rpow_sub_one hx.ne' g, Real.rpow_sub_one hx.ne' a, Real.rpow_sub_one h1.ne']
    generalize (r / rs) ^ a = A at *
    generalize (r / rs) ^ g = G at *
    generalize (1 + A) ^ ((b - g) / a) = D at *
    field_simp
    ring
  have hone : (rs / rs) ^ a = 1 := by rw [div_self hrs.ne', Real.one_rpow]
  refine ⟨main, ?_, ?_⟩
  · have := main rs hrs
    rw [hone] at this
    have e : (g + b * 1) / (1 + 1) = (g + b) / 2 := by norm_num
    rwa [e] at this
  · unfold alphaBetaGamma
    rw [hone, div_self hrs.ne', Real.one_rpow, one_mul]
    norm_num

/-- A model with a sharper transition. -/
example : alphaBetaGamma 5 2 4 2 7 7 = 5 / 2 := by
  rw [(C48_transition 5 2 4 2 7 (by norm_num) (by norm_num)).2.2]
  norm_num

/-! ## C69: the value -/

/-- C69. The value for two samples: with `R` and `S` points in total and `x b`, `y b` points in bin `b`, the sum over the bins of
`(S * x b - R * y b) ^ 2 / (R * S * (x b + y b))`, empty bins not counting. -/
theorem C69_pearson (x y : List ℝ) (hx : ∀ t ∈ x, 0 ≤ t) (hy : ∀ t ∈ y, 0 ≤ t) (hR : 0 < x.sum) (hS : 0 < y.sum) (nb : Nat) :
    chiSquare [x, y] nb = some (((List.range nb).map fun b =>
      if x.getD b 0 + y.getD b 0 = 0 then 0
      else (y.sum * x.getD b 0 - x.sum * y.getD b 0) ^ 2 / (x.sum * y.sum * (x.getD b 0 + y.getD b 0))).sum) := by
  rw [chiSquare_eq, if_neg]
  · simp only [List.map_cons, List.map_nil, List.sum_cons, List.sum_nil, add_zero]
    rw [← sum_map_add']
    congr 2
    apply List.map_congr_left
    intro b _
    have hxb : 0 ≤ x.getD b 0 := by
      rw [List.getD_eq_getElem?_getD]
      cases h : x[b]? with
      | none => simp
      | some t => simpa using hx t (List.mem_of_getElem? h)
    have hyb : 0 ≤ y.getD b 0 := by
      rw [List.getD_eq_getElem?_getD]
      cases h : y[b]? with
      | none => simp
      | some t => simpa using hy t (List.mem_of_getElem? h)
    unfold chiTerm
    simp only [colSum, total, List.map_cons, List.map_nil, List.sum_cons, List.sum_nil, add_zero]
    generalize x.getD b 0 = u at *
    generalize y.getD b 0 = w at *
    by_cases h0 : u + w = 0
    · simp [h0]
    · have hp : 0 < u + w := lt_of_le_of_ne (by linarith) (Ne.symm h0)
      have hRS : 0 < x.sum + y.sum := by linarith
      rw [if_pos (by positivity), if_pos (by positivity), if_neg h0]
      field_simp
      ring
  · intro h
    have : x.sum = 0 := List.sum_eq_zero (h x (by simp))
    linarith

theorem sum_modify (l : List ℝ) (i : Nat) (hi : i < l.length) : (l.modify i (· + 1)).sum = l.sum + 1 := by
  induction l generalizing i with
  | nil => simp at hi
  | cons a l ih =>
    cases i with
    | zero => simp; ring
    | succ i =>
      rw [List.modify_succ_cons, List.sum_cons, List.sum_cons, ih i (by simpa using hi)]
      ring

theorem countBins_sum (x : List (List ℝ)) : (countBins x).sum = (x.flatten.length : ℝ) := by
  have inner : ∀ (bin : Nat) (pts occ : List ℝ), 10 * bin + 10 ≤ occ.length →
      (pts.foldl (fun occ pt => occ.modify (10 * bin + closest yAxis (some pt)) (· + 1)) occ).sum = occ.sum + pts.length := by
    intro bin pts
    induction pts with
    | nil => intro occ _; simp
    | cons pt pts ih =>
      intro occ h
      have := closest_lt pt
      rw [List.foldl_cons, ih _ (by rw [List.length_modify]; exact h), sum_modify _ _ (by omega)]
      push_cast [List.length_cons]
      ring
  have outer : ∀ (x : List (List ℝ)) (k : Nat) (occ : List ℝ), 10 * (k + x.length) ≤ occ.length →
      ((x.zipIdx k).foldl (fun occ (pts, bin) =>
        pts.foldl (fun occ pt => occ.modify (10 * bin + closest yAxis (some pt)) (· + 1)) occ) occ).sum = occ.sum + (x.flatten.length : ℝ) := by
    intro x
    induction x with
    | nil => intro k occ _; simp
    | cons pts x ih =>
      intro k occ h
      simp only [List.length_cons] at h
      rw [List.zipIdx_cons, List.foldl_cons, ih _ _ (by rw [pts_length]; omega), inner _ _ _ (by omega)]
      push_cast [List.flatten_cons, List.length_append]
      ring
  unfold countBins
  rw [outer x 0 _ (by rw [List.length_replicate]; omega)]
  simp

/-- The number of points of sample `x` in entry `i`: those of bin `i / 10` whose nearest of the ten values 0, 1/9, ..., 1 is number `i % 10`. -/
noncomputable def entry (x : List (List ℝ)) (i : Nat) : ℝ := (pointsAt x (i / 10) (i % 10) : ℝ)

/-- C69. The value for two profiles with the same number of bins, and at least one point each: with `R` and `S` points in total, the sum over all entries of
`(S * X - R * Y) ^ 2 / (R * S * (X + Y))`, with the numbers `X` and `Y` of points in the entry. -/
theorem C69_pearson_profiles (x y : List (List ℝ)) (hl : x.length = y.length) (hx : x.flatten ≠ []) (hy : y.flatten ≠ []) :
    chiSquareMultiDim x y = some (some (((List.range (x.length * 10)).map fun i =>
      if entry x i + entry y i = 0 then 0
      else ((y.flatten.length : ℝ) * entry x i - (x.flatten.length : ℝ) * entry y i) ^ 2 /
        ((x.flatten.length : ℝ) * (y.flatten.length : ℝ) * (entry x i + entry y i))).sum)) := by
  have hpos : ∀ z : List (List ℝ), z.flatten ≠ [] → 0 < (countBins z).sum := by
    intro z hz
    rw [countBins_sum]
    exact_mod_cast List.length_pos_iff.2 hz
  unfold chiSquareMultiDim
  rw [if_pos hl, C69_pearson _ _ (countBins_nonneg x) (countBins_nonneg y) (hpos x hx) (hpos y hy)]
  congr 3
  apply List.map_congr_left
  intro i hi
  rw [List.mem_range] at hi
  have e : ∀ z : List (List ℝ), i < z.length * 10 → (countBins z).getD i 0 = entry z i := by
    intro z hz
    have := C69_counts z (i / 10) (i % 10) (by omega) (by omega)
    rw [Nat.div_add_mod] at this
    rw [List.getD_eq_getElem?_getD, this]
    rfl
  rw [e x hi, e y (by omega), countBins_sum, countBins_sum]

/-- Samples with counts (1, 3) and (2, 2). -/
example : chiSquare [[1, 3], [2, 2]] 2 = some (8 / 15) := by
  rw [C69_pearson _ _ (by simp) (by simp) (by norm_num) (by norm_num)]
  norm_num [List.range_succ]

end Verif.Stats
