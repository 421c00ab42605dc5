import Verif.Stats.HistProps
import Verif.Stats.ChiProps
import Mathlib.Analysis.SpecialFunctions.Log.Base

/-!
# Chi-square test for shape curves (C117)

`chiSquareToIShapeCurve`, `cosmic_profiles/common/cosmo_tools.py:88-127`.
-/

namespace Verif.Stats

/-! ## Model -/

/-- `np.logspace(D_LOGSTART, D_LOGEND, D_BINS+1)`, cosmo_tools.py:109. -/
noncomputable def logspace (S E : ℝ) (B : Nat) : List ℝ :=
  (List.range (B + 1)).map fun k : Nat => (10 : ℝ) ^ (S + k * ((E - S) / B))

/-- `int(x)` of a float: towards zero. -/
noncomputable def pyInt (x : ℝ) : Int := if 0 ≤ x then ⌊x⌋ else ⌈x⌉

/-- `-int(D_LOGEND/((D_LOGEND-D_LOGSTART)/D_BINS))-1`, cosmo_tools.py:113; `none` = ZeroDivisionError. -/
noncomputable def refIndex (S E : ℝ) (B : Nat) : Option Int :=
  if (B : ℝ) = 0 then none
  else if (E - S) / B = 0 then none
  else some (-pyInt (E / ((E - S) / B)) - 1)

/-- Python indexing with negative numbers; `none` = IndexError. -/
def pyGet {α : Type} (l : List α) (i : Int) : Option α :=
  if 0 ≤ i then l[i.toNat]?
  else if 0 ≤ (l.length : Int) + i then l[((l.length : Int) + i).toNat]?
  else none

/-- `d`, and the parameter of interest, of one object at all radii; `none` = NaN. -/
structure CurveRow where
  d : List (Option ℝ)
  par : List (Option ℝ)

/-- `d_cdm[obj][rad]/d_cdm[obj][-int(…)-1]`, cosmo_tools.py:113; NaN if one of them is NaN.  A zero divisor,
which gives NaN or infinity, is simplified to NaN. -/
noncomputable def ratio (d ref : Option ℝ) : Option ℝ :=
  d.bind fun x => ref.bind fun r => if r = 0 then none else some (x / r)

/-- Body of the two nested loops, cosmo_tools.py:112-117 and 121-126; outer `none` = exception. -/
noncomputable def curveStep (S E : ℝ) (B : Nat) (row : CurveRow) (y : List (List ℝ)) (rad : Nat) :
    Option (List (List ℝ)) :=
  (row.d[rad]?).bind fun d =>
    (refIndex S E B).bind fun i =>
      (pyGet row.d i).bind fun ref =>
        (row.par[rad]?).map fun par =>
          let k := closest (logspace S E B) (ratio d ref)
          match par with
          | none => y
          | some v => if ∃ x, ratio d ref = some x ∧ E < Real.logb 10 x then y else push y k v

/-- The lists `y_cdm`, `y_fdm`, cosmo_tools.py:110-126. -/
noncomputable def curveLists (S E : ℝ) (B : Nat) (rows : List CurveRow) : Option (List (List ℝ)) :=
  rows.foldlM (fun y row => (List.range (B + 1)).foldlM (curveStep S E B row) y)
    ((List.range (B + 1)).map fun _ => [])

/-- The statistic of `chiSquareToIShapeCurve`, cosmo_tools.py:88-127; outer `none` = exception, inner
`none` = NaN. -/
noncomputable def chiShapeCurve (S E : ℝ) (B : Nat) (cdm fdm : List CurveRow) : Option (Option ℝ) :=
  (curveLists S E B cdm).bind fun x => (curveLists S E B fdm).bind fun y => chiSquareMultiDim x y

/-! ## Specification -/

/-- The shape of the object was determined at `B + 1` radii, spaced evenly in their logarithm from
`10^S R200` to `10^E R200`. -/
def OnCurve (S E : ℝ) (B : Nat) (row : CurveRow) : Prop :=
  row.par.length = B + 1 ∧ ∃ r200 : ℝ, 0 < r200 ∧
    row.d = (List.range (B + 1)).map fun k : Nat => some (r200 * (10 : ℝ) ^ (S + k * ((E - S) / B)))

/-- The values of the parameter at radius number `k`, of all objects which have one there. -/
def valuesAt (rows : List CurveRow) (k : Nat) : List ℝ := rows.filterMap fun row => row.par[k]?.join

/-! ## Proofs -/

theorem logspace_getElem {S E : ℝ} {B k : Nat} (hk : k < (logspace S E B).length) :
    (logspace S E B)[k] = (10 : ℝ) ^ (S + k * ((E - S) / B)) := by
  simp [logspace]

theorem logspace_length (S E : ℝ) (B : Nat) : (logspace S E B).length = B + 1 := by simp [logspace]

section
variable {S E : ℝ} {B n : Nat} (hSE : S < E) (hB : 0 < B) (hn : E * B = n * (E - S)) (hnB : n ≤ B)
include hSE hB hn

theorem refIndex_eq : refIndex S E B = some (-(n : Int) - 1) := by
  have hB' : (0 : ℝ) < B := by exact_mod_cast hB
  have hd : 0 < E - S := by linarith
  unfold refIndex
  rw [if_neg hB'.ne', if_neg (div_pos hd hB').ne']
  have e : E / ((E - S) / B) = (n : ℝ) := by
    rw [div_div_eq_mul_div, hn, mul_div_cancel_right₀ _ hd.ne']
  rw [e]
  unfold pyInt
  rw [if_pos (Nat.cast_nonneg n), Int.floor_natCast]

include hnB in
theorem exponent_ref : S + ((B - n : Nat) : ℝ) * ((E - S) / B) = 0 := by
  have hB' : (B : ℝ) ≠ 0 := by exact_mod_cast hB.ne'
  rw [Nat.cast_sub hnB]
  field_simp
  linarith

include hnB in
theorem pyGet_ref (row : CurveRow) (r200 : ℝ)
    (hd : row.d = (List.range (B + 1)).map fun k : Nat => some (r200 * (10 : ℝ) ^ (S + k * ((E - S) / B)))) :
    pyGet row.d (-(n : Int) - 1) = some (some r200) := by
  unfold pyGet
  have hl : row.d.length = B + 1 := by rw [hd]; simp
  rw [if_neg (by omega), hl, if_pos (by push_cast; omega)]
  have : (((B + 1 : Nat) : Int) + (-(n : Int) - 1)).toNat = B - n := by omega
  rw [this, hd, List.getElem?_map, List.getElem?_range (by omega), Option.map_some,
    exponent_ref hSE hB hn hnB, Real.rpow_zero, mul_one]

include hnB in
/-- One step agrees with that of the averages (C83). -/
theorem curveStep_eq (row : CurveRow) (r200 : ℝ) (hr : 0 < r200) (hp : row.par.length = B + 1)
    (hd : row.d = (List.range (B + 1)).map fun k : Nat => some (r200 * (10 : ℝ) ^ (S + k * ((E - S) / B))))
    (y : List (List ℝ)) (k : Nat) (hk : k < B + 1) :
    curveStep S E B row y k = some (shapeStep (logspace S E B) ⟨row.d, row.par, r200⟩ y k) := by
  have hB' : (0 : ℝ) < B := by exact_mod_cast hB
  have hdk : row.d[k]? = some (some (r200 * (10 : ℝ) ^ (S + k * ((E - S) / B)))) := by
    rw [hd, List.getElem?_map, List.getElem?_range hk]; rfl
  have hpk : row.par[k]? = some row.par[k] := List.getElem?_eq_getElem (by omega)
  have hx : (0 : ℝ) < (10 : ℝ) ^ (S + k * ((E - S) / B)) := Real.rpow_pos_of_pos (by norm_num) _
  have hr1 : ratio (some (r200 * (10 : ℝ) ^ (S + k * ((E - S) / B)))) (some r200) =
      some ((10 : ℝ) ^ (S + k * ((E - S) / B))) := by
    simp only [ratio, Option.bind_some, if_neg hr.ne']
    rw [mul_div_cancel_left₀ _ hr.ne']
  unfold curveStep shapeStep
  simp only [hdk, hpk, refIndex_eq hSE hB hn, pyGet_ref hSE hB hn hnB row r200 hd, Option.bind_some,
    Option.map_some, Option.join_some, hr1]
  rw [mul_div_cancel_left₀ _ hr.ne']
  cases row.par[k] with
  | none => rfl
  | some v =>
    simp only
    rw [if_neg]
    rintro ⟨x, h1, h2⟩
    obtain rfl := Option.some.inj h1
    rw [Real.logb_rpow (by norm_num) (by norm_num)] at h2
    have h3 : (k : ℝ) ≤ B := by exact_mod_cast (by omega : k ≤ B)
    have h4 : (k : ℝ) * ((E - S) / B) ≤ B * ((E - S) / B) :=
      mul_le_mul_of_nonneg_right h3 (div_nonneg (by linarith) hB'.le)
    rw [mul_div_cancel₀ _ hB'.ne'] at h4
    linarith

theorem onGrid (row : CurveRow) (r200 : ℝ) (hr : 0 < r200) (hp : row.par.length = B + 1)
    (hd : row.d = (List.range (B + 1)).map fun k : Nat => some (r200 * (10 : ℝ) ^ (S + k * ((E - S) / B)))) :
    OnGrid (logspace S E B) ⟨row.d, row.par, r200⟩ := by
  have hB' : (0 : ℝ) < B := by exact_mod_cast hB
  have hl := logspace_length S E B
  refine ⟨by rw [hl]; simp [hd], by rw [hl]; exact hp, ?_⟩
  intro k hk v _
  rw [hl] at hk
  refine ⟨_, by
    show row.d[k]? = some (some (r200 * (10 : ℝ) ^ (S + k * ((E - S) / B))))
    rw [hd, List.getElem?_map, List.getElem?_range hk]; rfl, ?_⟩
  intro j hj hjk
  show |_ - _ / r200| < |_ - _ / r200|
  rw [mul_div_cancel_left₀ _ hr.ne', logspace_getElem, logspace_getElem, sub_self, abs_zero, abs_pos,
    sub_ne_zero]
  intro e
  have := (Real.rpow_right_inj (by norm_num : (0 : ℝ) < 10) (by norm_num)).1 e
  have h2 : ((j : ℝ) - k) * ((E - S) / B) = 0 := by linarith
  rcases mul_eq_zero.1 h2 with h3 | h3
  · exact hjk (by exact_mod_cast (by linarith : (j : ℝ) = k))
  · exact (div_pos (by linarith) hB').ne' h3

end

theorem foldlM_some {α β : Type} (f : β → α → Option β) (g : β → α → β) (l : List α)
    (h : ∀ a ∈ l, ∀ b, f b a = some (g b a)) (b : β) : l.foldlM f b = some (l.foldl g b) := by
  induction l generalizing b with
  | nil => rfl
  | cons a l ih =>
    rw [List.foldlM_cons, h a List.mem_cons_self, List.foldl_cons]
    exact ih (fun a' h' => h a' (List.mem_cons_of_mem _ h')) _

theorem curveLists_eq {S E : ℝ} {B n : Nat} (hSE : S < E) (hB : 0 < B) (hn : E * B = n * (E - S))
    (hnB : n ≤ B) (rows : List CurveRow) (h : ∀ row ∈ rows, OnCurve S E B row) :
    curveLists S E B rows = some ((List.range (B + 1)).map (valuesAt rows)) := by
  -- rows together with their R200
  obtain ⟨rs, hrs⟩ : ∃ rs : List ShapeRow, List.Forall₂ (fun (row : CurveRow) (s : ShapeRow) =>
      s.d = row.d ∧ s.par = row.par ∧ OnGrid (logspace S E B) s ∧
      ∀ y k, k < B + 1 → curveStep S E B row y k = some (shapeStep (logspace S E B) s y k)) rows rs := by
    induction rows with
    | nil => exact ⟨[], .nil⟩
    | cons row rows ih =>
      obtain ⟨rs, hrs⟩ := ih fun r hr => h r (List.mem_cons_of_mem _ hr)
      obtain ⟨hp, r200, hr, hd⟩ := h row List.mem_cons_self
      exact ⟨⟨row.d, row.par, r200⟩ :: rs, .cons ⟨rfl, rfl, onGrid hSE hB hn row r200 hr hp hd,
        fun y k hk => curveStep_eq hSE hB hn hnB row r200 hr hp hd y k hk⟩ hrs⟩
  have h1 : curveLists S E B rows = some (collectShape (logspace S E B) rs) := by
    unfold curveLists collectShape
    have e : ((logspace S E B).map fun _ => ([] : List ℝ)) = (List.range (B + 1)).map fun _ => [] := by
      simp [logspace, Function.comp_def]
    rw [e, logspace_length]
    generalize ((List.range (B + 1)).map fun _ => ([] : List ℝ)) = y
    clear e h
    induction hrs generalizing y with
    | nil => rfl
    | cons hr _ ih =>
      rw [List.foldlM_cons, List.foldl_cons,
        foldlM_some _ (shapeStep (logspace S E B) _) _
          (fun k hk b => hr.2.2.2 b k (List.mem_range.1 hk))]
      exact ih _
  have hgrid : ∀ s ∈ rs, OnGrid (logspace S E B) s := by
    clear h1 h
    induction hrs with
    | nil => simp
    | cons hr _ ih =>
      intro s hs
      rcases List.mem_cons.1 hs with rfl | hs
      · exact hr.2.2.1
      · exact ih s hs
  have hvals : ∀ k, (rs.filterMap fun s => s.par[k]?.join) = valuesAt rows k := by
    intro k
    clear h1 h hgrid
    unfold valuesAt
    induction hrs with
    | nil => rfl
    | cons hr _ ih => rw [List.filterMap_cons, List.filterMap_cons, ih, hr.2.1]
  rw [h1]
  congr 1
  apply List.ext_getElem?
  intro k
  by_cases hk : k < B + 1
  · rw [C83_values _ _ hgrid k (by rw [logspace_length]; exact hk), hvals, List.getElem?_map,
      List.getElem?_range hk]
    rfl
  · rw [List.getElem?_eq_none (l := (List.range (B + 1)).map (valuesAt rows)) (by simp; omega)]
    apply List.getElem?_eq_none
    have : (collectShape (logspace S E B) rs).length = (logspace S E B).length := by
      unfold collectShape
      have key : ∀ (rs : List ShapeRow) (y : List (List ℝ)),
          (rs.foldl (fun y row => (List.range (logspace S E B).length).foldl
            (shapeStep (logspace S E B) row) y) y).length = y.length := by
        intro rs
        induction rs with
        | nil => intro y; rfl
        | cons s rs ih =>
          intro y
          rw [List.foldl_cons, ih]
          generalize List.range (logspace S E B).length = ks
          induction ks generalizing y with
          | nil => rfl
          | cons k ks ih2 =>
            rw [List.foldl_cons, ih2]
            unfold shapeStep
            simp only
            split
            · rfl
            · unfold push; rw [List.length_modify]
      rw [key]; simp
    rw [this, logspace_length]; omega

/-- C117 (partial). If R200 is one of the radii, the test for shape curves is the test which compares, radius
by radius, the values at that radius of the objects of the two samples which have one there. Missing: R200
between two radii (`C117_between_refuted`). -/
theorem C117_radius_by_radius_partial (S E : ℝ) (B n : Nat) (hSE : S < E) (hB : 0 < B)
    (hn : E * B = n * (E - S)) (hnB : n ≤ B) (cdm fdm : List CurveRow)
    (hc : ∀ row ∈ cdm, OnCurve S E B row) (hf : ∀ row ∈ fdm, OnCurve S E B row) :
    chiShapeCurve S E B cdm fdm = chiSquareMultiDim ((List.range (B + 1)).map (valuesAt cdm))
      ((List.range (B + 1)).map (valuesAt fdm)) := by
  unfold chiShapeCurve
  rw [curveLists_eq hSE hB hn hnB cdm hc, curveLists_eq hSE hB hn hnB fdm hf]
  rfl

/-- C117 is false if R200 lies between two radii: with the radii `R200 / 10` and `10 R200`, both values of
every object are counted at the smaller radius, and none at the larger one. -/
theorem C117_between_refuted (rows : List CurveRow) (h : ∀ row ∈ rows, OnCurve (-1) 1 1 row)
    (hall : ∀ row ∈ rows, ∀ x ∈ row.par, x ≠ none) :
    ∃ l, curveLists (-1) 1 1 rows = some [l, []] ∧ l.length = 2 * rows.length := by
  have hR : logspace (-1) 1 1 = [1 / 10, 10] := by
    unfold logspace
    norm_num [List.range_succ]
  have hi : refIndex (-1) 1 1 = some (-1) := by
    unfold refIndex pyInt
    norm_num
  have hstep : ∀ row : CurveRow, OnCurve (-1) 1 1 row → (∀ x ∈ row.par, x ≠ none) → ∀ (k : Nat), k < 2 →
      ∃ v, ∀ l, curveStep (-1) 1 1 row [l, []] k = some [l ++ [v], []] := by
    intro row ⟨hp, r, hr, hd⟩ hnn k hk
    have hd' : row.d = [some (r * (1 / 10)), some (r * 10)] := by
      rw [hd]; norm_num [List.range_succ]
    obtain ⟨a, b, hab⟩ : ∃ a b, row.par = [a, b] := List.length_eq_two.1 hp
    have ha : ∃ v, row.par[k]? = some (some v) := by
      have : row.par[k]? = some row.par[k] := List.getElem?_eq_getElem (by omega)
      cases hv : row.par[k] with
      | none => exact absurd hv (hnn _ (List.getElem_mem _))
      | some v => exact ⟨v, by rw [this, hv]⟩
    obtain ⟨v, hv⟩ := ha
    refine ⟨v, fun l => ?_⟩
    have hg : pyGet row.d (-1) = some (some (r * 10)) := by rw [hd']; rfl
    have hcl : ∀ x : ℝ, |1 / 10 - x| ≤ |10 - x| → closest (logspace (-1) 1 1) (some x) = 0 := by
      intro x hx
      unfold closest argmin
      rw [hR]
      rw [if_neg (by simp)]
      rw [List.map_cons, List.findIdx_cons, @decide_eq_true _ (_)]
      · rfl
      · intro y hy p q hp hq
        simp only [List.map_cons, List.map_nil, Option.map_some, List.mem_cons, List.not_mem_nil, or_false] at hy hp
        obtain rfl := Option.some.inj hp
        rcases hy with rfl | rfl
        · rw [← Option.some.inj hq]
        · rw [← Option.some.inj hq]; exact hx
    have hfin : ∀ (d : ℝ) (x : ℝ), row.d[k]? = some (some d) → d / (r * 10) = x → |1 / 10 - x| ≤ |10 - x| →
        0 < x → x ≤ 1 → curveStep (-1) 1 1 row [l, []] k = some [l ++ [v], []] := by
      intro d x h1 h2 h3 h4 h5
      have hrat : ratio (some d) (some (r * 10)) = some x := by
        simp only [ratio, Option.bind_some]
        rw [if_neg (by positivity), h2]
      unfold curveStep
      simp only [h1, hi, hg, hv, hrat, Option.bind_some, Option.map_some, hcl x h3]
      rw [if_neg]
      · rfl
      · rintro ⟨x', e1, e2⟩
        obtain rfl := Option.some.inj e1
        have : Real.logb 10 x ≤ 0 := Real.logb_nonpos (by norm_num) h4.le h5
        linarith
    rcases (by omega : k = 0 ∨ k = 1) with rfl | rfl
    · refine hfin (r * (1 / 10)) (1 / 100) (by rw [hd']; rfl) (by field_simp; norm_num) ?_ (by norm_num) (by norm_num)
      rw [abs_of_nonneg (by norm_num), abs_of_nonneg (by norm_num)]; norm_num
    · refine hfin (r * 10) 1 (by rw [hd']; rfl) (by field_simp) ?_ (by norm_num) le_rfl
      rw [abs_of_neg (by norm_num), abs_of_nonneg (by norm_num)]; norm_num
  have key : ∀ (rows : List CurveRow) (l0 : List ℝ), (∀ row ∈ rows, OnCurve (-1) 1 1 row) →
      (∀ row ∈ rows, ∀ x ∈ row.par, x ≠ none) →
      ∃ l, rows.foldlM (fun y row => (List.range (1 + 1)).foldlM (curveStep (-1) 1 1 row) y) [l0, []] =
        some [l, []] ∧ l.length = l0.length + 2 * rows.length := by
    intro rows
    induction rows with
    | nil => intro l0 _ _; exact ⟨l0, rfl, by simp⟩
    | cons row rows ih =>
      intro l0 h1 h2
      obtain ⟨v0, e0⟩ := hstep row (h1 row List.mem_cons_self) (h2 row List.mem_cons_self) 0 (by omega)
      obtain ⟨v1, e1⟩ := hstep row (h1 row List.mem_cons_self) (h2 row List.mem_cons_self) 1 (by omega)
      obtain ⟨l, e2, e3⟩ := ih (l0 ++ [v0] ++ [v1]) (fun r hr => h1 r (List.mem_cons_of_mem _ hr))
        (fun r hr => h2 r (List.mem_cons_of_mem _ hr))
      refine ⟨l, ?_, by rw [e3]; simp; ring⟩
      rw [List.foldlM_cons]
      have : (List.range (1 + 1)).foldlM (curveStep (-1) 1 1 row) [l0, []] =
          some [l0 ++ [v0] ++ [v1], []] := by
        show ([0, 1] : List Nat).foldlM (curveStep (-1) 1 1 row) [l0, []] = _
        rw [List.foldlM_cons, e0]
        show ([1] : List Nat).foldlM (curveStep (-1) 1 1 row) [l0 ++ [v0], []] = _
        rw [List.foldlM_cons, e1]
        rfl
      rw [this]
      exact e2
  obtain ⟨l, h1, h2⟩ := key rows [] h hall
  exact ⟨l, h1, by simpa using h2⟩

/-- An object with shapes at three radii, `R200 / 100`, `R200 / 10`, `R200`. -/
example : OnCurve (-2) 0 2 ⟨[some (2 / 100), some (2 / 10), some 2], [some (1 / 2), none, some (1 / 3)]⟩ ∧
    (0 : ℝ) * (2 : Nat) = (0 : Nat) * (0 - -2) := by
  refine ⟨⟨rfl, 2, by norm_num, ?_⟩, by norm_num⟩
  norm_num [List.range_succ]

/-- An object with shapes at `R200 / 10` and `10 R200`. -/
example : OnCurve (-1) 1 1 ⟨[some (1 / 10), some 10], [some (1 / 2), some (1 / 3)]⟩ := by
  refine ⟨rfl, 1, by norm_num, ?_⟩
  norm_num [List.range_succ]

end Verif.Stats
