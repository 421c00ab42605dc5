import Verif.Fits.Model
import Verif.Catalogue.Props
import Mathlib.Analysis.SpecialFunctions.Log.Basic
import Mathlib.Tactic.FieldSimp
import Mathlib.Tactic.Positivity

/-!
# Density profile fits (C50, C51, C87, C88)
-/

namespace Verif.Fits

/-! ## C50: rows belong to objects -/

theorem getElem?_place {α : Type} (f : Nat → Option α) (order : List Nat) (rows : List α) (k : Nat)
    (hk : k < rows.length) :
    ((order.filterMap fun i => (f i).map fun x => (x, i)).foldl
      (fun rows result => rows.set result.2 result.1) rows)[k]? =
      if k ∈ order ∧ (f k).isSome then f k else rows[k]? := by
  induction order generalizing rows with
  | nil => simp
  | cons i order ih =>
    cases hfi : f i with
    | none =>
      simp only [List.filterMap_cons, hfi, Option.map_none]
      rw [ih rows hk]
      by_cases h : k ∈ order
      · simp [h]
      · by_cases hki : k = i
        · subst hki; simp [hfi]
        · simp [h, hki]
    | some x =>
      simp only [List.filterMap_cons, hfi, Option.map_some, List.foldl_cons]
      rw [ih (rows.set i x) (by simpa using hk)]
      by_cases hki : k = i
      · subst hki
        rw [List.getElem?_set_self hk]
        simp [hfi]
      · rw [List.getElem?_set_ne (Ne.symm hki)]
        simp [hki]

theorem length_foldl_set {α : Type} (l : List (α × Nat)) (rows : List α) :
    (l.foldl (fun rows result => rows.set result.2 result.1) rows).length = rows.length := by
  induction l generalizing rows with
  | nil => rfl
  | cons a l ih => rw [List.foldl_cons, ih, List.length_set]

/-- C50. Whatever the order in which the worker processes deliver their results: row `k` of the result is
the fit of profile `k` with virial radius `k`. -/
theorem C50_rows (opt : Optimiser) (rOverR200 : List ℝ) (m : Method) (profs : List (List (Option ℝ)))
    (r200s : List ℝ) (order : List Nat) (hlen : profs.length = r200s.length)
    (horder : order.Perm (List.range profs.length)) :
    fitHelper opt rOverR200 m profs r200s order =
      List.zipWith (fun prof r200 => fitDensProf opt rOverR200 m prof r200) profs r200s := by
  unfold fitHelper place
  have hf : (fun i : Nat => (profs[i]?).bind fun prof => (r200s[i]?).map fun r200 =>
      (fitDensProf opt rOverR200 m prof r200, i)) = fun i : Nat => ((profs[i]?).bind fun prof =>
        (r200s[i]?).map fun r200 => fitDensProf opt rOverR200 m prof r200).map fun x => (x, i) := by
    funext i
    cases profs[i]? <;> cases r200s[i]? <;> rfl
  rw [hf]
  apply List.ext_getElem?
  intro k
  by_cases hk : k < profs.length
  · rw [getElem?_place _ _ _ _ (by simpa using hk), List.getElem?_zipWith,
      List.getElem?_eq_getElem hk, List.getElem?_eq_getElem (hlen ▸ hk)]
    rw [if_pos ⟨horder.mem_iff.2 (List.mem_range.2 hk), rfl⟩]
    rfl
  · rw [List.getElem?_eq_none, List.getElem?_eq_none]
    · simp only [List.length_zipWith]; omega
    · rw [length_foldl_set, List.length_replicate]; omega

theorem validCall_iff (profs : List (List (Option ℝ))) (sel : List Nat) (nb : Nat) :
    validCall profs sel nb = true ↔
      profs.length = sel.length ∧ sel ≠ [] ∧ sel.Nodup ∧ ∀ i ∈ sel, i < nb := by
  unfold validCall
  simp only [decide_eq_true_eq, Catalogue.isValidSelection_iff, Catalogue.Meaningful]
  have h1 : (sel.map fun n : Nat => (n : ℚ)) ≠ [] ↔ sel ≠ [] := by simp
  have h2 : (sel.map fun n : Nat => (n : ℚ)).Nodup ↔ sel.Nodup :=
    List.nodup_map_iff Nat.cast_injective
  rw [h1, h2]
  simp only [List.mem_map, forall_exists_index, and_imp, forall_apply_eq_imp_iff₂, Nat.cast_inj,
    exists_eq_left']

/-- C50. A call is accepted exactly if there are as many profiles as selected objects and the selection is
a non-empty set of existing objects. -/
theorem C50_accepted (opt : Optimiser) (c : Units.Cfg ℝ) (m : Method) (r200s rOverR200 : List ℝ)
    (profs : List (List (Option ℝ))) (sel order : List Nat) :
    (fitDensProfs opt c m r200s rOverR200 profs sel order).isSome ↔
      profs.length = sel.length ∧ sel ≠ [] ∧ sel.Nodup ∧ ∀ i ∈ sel, i < r200s.length := by
  rw [← validCall_iff]
  unfold fitDensProfs
  split <;> simp [*]

theorem chosen_radii (r200s : List ℝ) (sel : List Nat) (h : ∀ i ∈ sel, i < r200s.length) :
    (sel.filterMap fun i => r200s[i]?).length = sel.length ∧
    ∀ k : Nat, (sel.filterMap fun i => r200s[i]?)[k]? = (sel[k]?).bind fun i => r200s[i]? := by
  induction sel with
  | nil => simp
  | cons i sel ih =>
    have ih := ih (fun j hj => h j (List.mem_cons_of_mem _ hj))
    have hi := List.getElem?_eq_getElem (h i List.mem_cons_self)
    simp only [List.filterMap_cons, hi]
    refine ⟨by simp [ih.1], fun k => ?_⟩
    cases k with
    | zero => simp [hi]
    | succ k => simpa using ih.2 k

theorem fitDensProfs_rows (opt : Optimiser) (c : Units.Cfg ℝ) (m : Method) (r200s rOverR200 : List ℝ)
    (profs : List (List (Option ℝ))) (sel order : List Nat) (horder : order.Perm (List.range profs.length))
    (rows : List (List (Option ℝ)))
    (h : fitDensProfs opt c m r200s rOverR200 profs sel order = some rows) :
    rows.length = profs.length ∧ ∀ (k : Nat), rows[k]? = (profs[k]?).bind fun prof =>
      ((sel[k]?).bind fun i => r200s[i]?).map fun r200 =>
        toOutUnits c m.profile (fitDensProf opt rOverR200 m (toFitUnits c prof) r200) := by
  have hv := (C50_accepted opt c m r200s rOverR200 profs sel order).1 (by rw [h]; rfl)
  have hv' := (validCall_iff profs sel r200s.length).2 hv
  unfold fitDensProfs at h
  rw [if_pos hv', C50_rows _ _ _ _ _ _ (by simp [(chosen_radii r200s sel hv.2.2.2).1, hv.1])
    (by simpa using horder)] at h
  have h := Option.some.inj h
  subst h
  have hc := chosen_radii r200s sel hv.2.2.2
  refine ⟨by simp [hc.1, hv.1], fun k => ?_⟩
  rw [List.getElem?_map, List.getElem?_zipWith, List.getElem?_map, hc.2]
  cases profs[k]? <;> cases (sel[k]?).bind fun i => r200s[i]? <;> rfl

/-- C50. Each row of the result is what a call for this object alone returns. -/
theorem C50_no_crosstalk (opt : Optimiser) (c : Units.Cfg ℝ) (m : Method) (r200s rOverR200 : List ℝ)
    (profs : List (List (Option ℝ))) (sel order : List Nat) (horder : order.Perm (List.range profs.length))
    (rows : List (List (Option ℝ)))
    (h : fitDensProfs opt c m r200s rOverR200 profs sel order = some rows) :
    rows.length = profs.length ∧ ∀ (k i : Nat) (prof : List (Option ℝ)), profs[k]? = some prof →
      sel[k]? = some i → ∃ row, rows[k]? = some row ∧
        fitDensProfs opt c m r200s rOverR200 [prof] [i] [0] = some [row] := by
  have hv := (C50_accepted opt c m r200s rOverR200 profs sel order).1 (by rw [h]; rfl)
  have hr := fitDensProfs_rows _ _ _ _ _ _ _ _ horder _ h
  refine ⟨hr.1, fun k i prof hp hi => ?_⟩
  have hil : i < r200s.length := hv.2.2.2 i (List.mem_of_getElem? hi)
  obtain ⟨rows', h'⟩ := Option.isSome_iff_exists.1
    ((C50_accepted opt c m r200s rOverR200 [prof] [i] [0]).2 (by simp [hil]))
  have hr' := fitDensProfs_rows _ _ _ _ _ _ _ _ (by simp [List.range_succ]) _ h'
  have h0 := hr'.2 0
  have hk := hr.2 k
  simp only [List.getElem?_cons_zero, Option.bind_some, List.getElem?_eq_getElem hil, Option.map_some] at h0
  simp only [hp, hi, Option.bind_some, List.getElem?_eq_getElem hil, Option.map_some] at hk
  refine ⟨_, hk, ?_⟩
  rw [h']
  congr 1
  have hl : rows'.length = 1 := hr'.1
  obtain ⟨row', rfl⟩ := List.length_eq_one_iff.1 hl
  simpa using h0

/-! ## C51: given parameters -/

/-- Values inside their bounds. -/
def InBox (bounds : List Bound) (x : List ℝ) : Prop :=
  List.Forall₂ (fun b v => b.1 ≤ v ∧ ∀ u, b.2 = some u → v ≤ u) bounds x

/-- An optimiser which respects bounds. -/
def Respects (opt : Optimiser) : Prop :=
  ∀ f start bounds x, opt f start bounds = some x → InBox bounds x

/-- A parameter given by the user. -/
def give (m : Method) (name : String) (v : ℝ) : Method :=
  { m with fixed := fun s => if s = name then some v else m.fixed s }

/-- C51 is false for the density: a given `rho_s` is ignored; the same rows result whatever the given
value. -/
theorem C51_density_ignored_refuted (opt : Optimiser) (c : Units.Cfg ℝ) (m : Method)
    (r200s rOverR200 : List ℝ) (profs : List (List (Option ℝ))) (sel order : List Nat) (v w : ℝ) :
    fitDensProfs opt c (give m "rho_s" v) r200s rOverR200 profs sel order =
      fitDensProfs opt c (give m "rho_s" w) r200s rOverR200 profs sel order := by
  have hb : bound (give m "rho_s" v) = bound (give m "rho_s" w) := by
    funext name
    unfold bound give
    by_cases hn : name = "rho_s"
    · simp [hn]
    · simp [hn]
  have hfit : fitDensProf opt rOverR200 (give m "rho_s" v) = fitDensProf opt rOverR200 (give m "rho_s" w) := by
    funext prof r200
    unfold fitDensProf
    rw [hb]
    rfl
  unfold fitDensProfs fitHelper
  rw [hfit]
  rfl

theorem row_shape (opt : Optimiser) (hopt : Respects opt) (rOverR200 : List ℝ) (m : Method)
    (prof : List (Option ℝ)) (r200 : ℝ) :
    fitDensProf opt rOverR200 m prof r200 = (m.profile.params.map fun _ => none) ∨
    ∃ x, InBox (m.profile.params.map (bound m)) x ∧ fitDensProf opt rOverR200 m prof r200 =
      rescale (average ((fitData rOverR200 r200 prof).map fun rd => rd.2)) x := by
  unfold fitDensProf
  simp only
  split
  · rename_i x hx
    exact Or.inr ⟨x, hopt _ _ _ _ hx, rfl⟩
  · exact Or.inl rfl

theorem getElem?_rescale (avg : Option ℝ) (x : List ℝ) (j : Nat) (hj : 0 < j) :
    (rescale avg x)[j]? = (x[j]?).map some := by
  cases x with
  | nil => simp [rescale]
  | cons a x =>
    cases j with
    | zero => omega
    | succ j => simp [rescale]

theorem fixed_column (opt : Optimiser) (hopt : Respects opt) (rOverR200 : List ℝ) (m : Method)
    (prof : List (Option ℝ)) (r200 : ℝ) (j : Nat) (name : String) (v : ℝ)
    (hname : m.profile.params[j]? = some name) (hne : name ≠ "rho_s") (hv : m.fixed name = some v) :
    (fitDensProf opt rOverR200 m prof r200)[j]? = some none ∨
    (fitDensProf opt rOverR200 m prof r200)[j]? = some (some v) := by
  have hj : 0 < j := by
    rcases Nat.eq_zero_or_pos j with rfl | h
    · cases hp : m.profile <;> rw [hp] at hname <;> simp [Profile.params] at hname <;> exact absurd hname.symm hne
    · exact h
  rcases row_shape opt hopt rOverR200 m prof r200 with h | ⟨x, hx, h⟩
  · left; rw [h, List.getElem?_map, hname]; rfl
  · right
    rw [h, getElem?_rescale _ _ _ hj]
    have hlen := hx.length_eq
    obtain ⟨hjl, hjn⟩ := List.getElem?_eq_some_iff.1 hname
    have hxl : j < x.length := by rw [← hlen, List.length_map]; exact hjl
    have := List.forall₂_iff_get.1 hx
    have h2 := this.2 j (by simpa using hjl) hxl
    simp only [List.get_eq_getElem, List.getElem_map, hjn] at h2
    have hb : bound m name = (v, some v) := by simp [bound, hne, hv]
    rw [hb] at h2
    have : x[j] = v := le_antisymm (h2.2 v rfl) h2.1
    rw [List.getElem?_eq_getElem hxl, this]
    rfl

theorem getElem?_toOutUnits (c : Units.Cfg ℝ) (p : Profile) (row : List (Option ℝ)) (j : Nat) (hj : j ≠ 0) :
    (toOutUnits c p row)[j]? = (row[j]?).map fun x =>
      if j = rsColumn p then x.map fun x => x * ((fitUnits c).1 / c.outL) else x := by
  unfold toOutUnits modifyCol
  rw [List.getElem?_modify, List.getElem?_modify]
  by_cases h : rsColumn p = j
  · subst h
    cases row[rsColumn p]? <;> simp [Ne.symm hj]
  · cases row[j]? <;> simp [h, Ne.symm hj, Ne.symm h]

/-- C51, the part which holds: a given `alpha`, `beta` or `gamma` is returned for every object, unless the
row is NaN because the optimiser rejected the problem. -/
theorem C51_given_partial (opt : Optimiser) (hopt : Respects opt) (c : Units.Cfg ℝ) (m : Method)
    (r200s rOverR200 : List ℝ) (profs : List (List (Option ℝ))) (sel order : List Nat)
    (horder : order.Perm (List.range profs.length)) (rows : List (List (Option ℝ)))
    (h : fitDensProfs opt c m r200s rOverR200 profs sel order = some rows)
    (j : Nat) (name : String) (v : ℝ) (hname : m.profile.params[j]? = some name)
    (habg : name ∈ ["alpha", "beta", "gamma"]) (hv : m.fixed name = some v) :
    ∀ row ∈ rows, row[j]? = some none ∨ row[j]? = some (some v) := by
  intro row hrow
  obtain ⟨k, hk⟩ := List.getElem?_of_mem hrow
  have hr := (fitDensProfs_rows _ _ _ _ _ _ _ _ horder _ h).2 k
  rw [hk] at hr
  obtain ⟨prof, -, hr⟩ := Option.bind_eq_some_iff.1 hr.symm
  obtain ⟨r200, -, rfl⟩ := Option.map_eq_some_iff.1 hr
  have hj : j ≠ 0 ∧ j ≠ rsColumn m.profile := by
    constructor <;> rintro rfl <;> cases hp : m.profile <;> rw [hp] at hname <;>
      simp [Profile.params, rsColumn] at hname <;> simp [← hname] at habg
  rw [getElem?_toOutUnits _ _ _ _ hj.1]
  have hne : name ≠ "rho_s" := by rintro rfl; simp at habg
  rcases fixed_column opt hopt rOverR200 m (toFitUnits c prof) r200 j name v hname hne hv with h | h <;>
    rw [h] <;> simp [hj.2]

/-- C51 is false for the scale radius, as soon as lengths are not output in Mpc/h: a given `r_s` is taken
to be in Mpc/h, but the scale radii returned are in output units, so that they differ from the given
one. -/
theorem C51_scale_radius_refuted (opt : Optimiser) (hopt : Respects opt) (c : Units.Cfg ℝ) (m : Method)
    (r200s rOverR200 : List ℝ) (profs : List (List (Option ℝ))) (sel order : List Nat)
    (horder : order.Perm (List.range profs.length)) (rows : List (List (Option ℝ)))
    (h : fitDensProfs opt c m r200s rOverR200 profs sel order = some rows)
    (v : ℝ) (hv : m.fixed "r_s" = some v) (hv0 : v ≠ 0) (hout : c.outL ≠ 3085678 * 10 ^ 18 / c.h)
    (hpos : 0 < c.outL) :
    ∀ row ∈ rows, ∀ x, row.getLast? = some (some x) →
      x = v * (3085678 * 10 ^ 18 / c.h / c.outL) ∧ x ≠ v := by
  intro row hrow x hx
  obtain ⟨k, hk⟩ := List.getElem?_of_mem hrow
  have hr := (fitDensProfs_rows _ _ _ _ _ _ _ _ horder _ h).2 k
  rw [hk] at hr
  obtain ⟨prof, -, hr⟩ := Option.bind_eq_some_iff.1 hr.symm
  obtain ⟨r200, -, rfl⟩ := Option.map_eq_some_iff.1 hr
  have hlen : (fitDensProf opt rOverR200 m (toFitUnits c prof) r200).length = rsColumn m.profile + 1 := by
    rcases row_shape opt hopt rOverR200 m (toFitUnits c prof) r200 with h | ⟨y, hy, h⟩
    · rw [h]; cases m.profile <;> simp [Profile.params, rsColumn]
    · rw [h]
      have := hy.length_eq
      have hl : ∀ avg, (rescale avg y).length = y.length := by intro avg; cases y <;> simp [rescale]
      rw [hl, ← this]; cases m.profile <;> simp [Profile.params, rsColumn]
  have hcol : rsColumn m.profile ≠ 0 := by cases m.profile <;> simp [rsColumn]
  have hname : m.profile.params[rsColumn m.profile]? = some "r_s" := by
    cases m.profile <;> simp [Profile.params, rsColumn]
  rw [List.getLast?_eq_getElem?] at hx
  have hl' : (toOutUnits c m.profile (fitDensProf opt rOverR200 m (toFitUnits c prof) r200)).length =
      rsColumn m.profile + 1 := by
    rw [← hlen]; simp [toOutUnits, modifyCol]
  rw [hl', Nat.add_sub_cancel, getElem?_toOutUnits _ _ _ _ hcol] at hx
  have hu : (fitUnits c).1 = 3085678 * 10 ^ 18 / c.h := rfl
  rcases fixed_column opt hopt rOverR200 m (toFitUnits c prof) r200 _ "r_s" v hname (by decide) hv with h | h
  · rw [h] at hx; simp at hx
  · rw [h] at hx
    simp only [Option.map_some, if_true, Option.some.injEq, hu] at hx
    refine ⟨hx.symm, fun hxv => hout ?_⟩
    rw [hxv] at hx
    have h1 : 3085678 * 10 ^ 18 / c.h / c.outL = 1 := by
      have : v * (3085678 * 10 ^ 18 / c.h / c.outL) = v * 1 := by rw [hx, mul_one]
      exact mul_left_cancel₀ hv0 this
    rw [div_eq_one_iff_eq hpos.ne'] at h1
    exact h1.symm

/-- C51. Concentrations are virial radius over fitted scale radius, both in output units. -/
theorem C51_concentration (opt : Optimiser) (hopt : Respects opt) (c : Units.Cfg ℝ) (m : Method)
    (r200s rOverR200 : List ℝ) (profs : List (List (Option ℝ))) (sel order : List Nat)
    (horder : order.Perm (List.range profs.length)) (hh : 0 < c.h) (hpos : 0 < c.outL)
    (rows : List (List (Option ℝ)))
    (h : fitDensProfs opt c m r200s rOverR200 profs sel order = some rows) :
    ∃ cs, estConcentrations opt c m r200s rOverR200 profs sel order = some cs ∧ cs.length = rows.length ∧
      ∀ (k i : Nat) (r200 : ℝ) (row : List (Option ℝ)), sel[k]? = some i → r200s[i]? = some r200 →
        rows[k]? = some row →
        (row.getLast? = some none → cs[k]? = some none) ∧
        ∀ rs, rs ≠ 0 → row.getLast? = some (some rs) →
          cs[k]? = some (some (r200 * (3085678 * 10 ^ 18 / c.h / c.outL) / rs)) := by
  have hv := (C50_accepted opt c m r200s rOverR200 profs sel order).1 (by rw [h]; rfl)
  have hv' := (validCall_iff profs sel r200s.length).2 hv
  have hc := chosen_radii r200s sel hv.2.2.2
  have hr := fitDensProfs_rows _ _ _ _ _ _ _ _ horder _ h
  have hest : estConcentrations opt c m r200s rOverR200 profs sel order =
      some (List.zipWith concentration (sel.filterMap fun i => r200s[i]?)
        (List.zipWith (fun prof r200 => fitDensProf opt rOverR200 m prof r200) (profs.map (toFitUnits c))
          (sel.filterMap fun i => r200s[i]?))) := by
    unfold estConcentrations
    rw [if_pos hv', C50_rows _ _ _ _ _ _ (by simp [hc.1, hv.1]) (by simpa using horder)]
  refine ⟨_, hest, by simp [hc.1, hv.1, hr.1], ?_⟩
  intro k i r200 row hi hr200 hrow
  have hk := hr.2 k
  rw [hrow] at hk
  obtain ⟨prof, hprof, hk⟩ := Option.bind_eq_some_iff.1 hk.symm
  rw [hi, Option.bind_some, hr200, Option.map_some, Option.some.injEq] at hk
  have hcs : (List.zipWith concentration (sel.filterMap fun i => r200s[i]?)
        (List.zipWith (fun prof r200 => fitDensProf opt rOverR200 m prof r200) (profs.map (toFitUnits c))
          (sel.filterMap fun i => r200s[i]?)))[k]? =
      some (concentration r200 (fitDensProf opt rOverR200 m (toFitUnits c prof) r200)) := by
    rw [List.getElem?_zipWith, List.getElem?_zipWith, List.getElem?_map, hc.2, hi, hprof]
    simp [hr200]
  rw [hcs]
  have hlen : (fitDensProf opt rOverR200 m (toFitUnits c prof) r200).length = rsColumn m.profile + 1 := by
    rcases row_shape opt hopt rOverR200 m (toFitUnits c prof) r200 with h | ⟨y, hy, h⟩
    · rw [h]; cases m.profile <;> simp [Profile.params, rsColumn]
    · rw [h]
      have := hy.length_eq
      have hl : ∀ avg, (rescale avg y).length = y.length := by intro avg; cases y <;> simp [rescale]
      rw [hl, ← this]; cases m.profile <;> simp [Profile.params, rsColumn]
  have hcol : rsColumn m.profile ≠ 0 := by cases m.profile <;> simp [rsColumn]
  have hl' : row.length = rsColumn m.profile + 1 := by
    rw [← hlen, ← hk]; simp [toOutUnits, modifyCol]
  have hlast : row.getLast? = ((fitDensProf opt rOverR200 m (toFitUnits c prof) r200).getLast?).map
      fun x => x.map fun x => x * ((fitUnits c).1 / c.outL) := by
    rw [List.getLast?_eq_getElem?, List.getLast?_eq_getElem?, hl', hlen, Nat.add_sub_cancel, ← hk,
      getElem?_toOutUnits _ _ _ _ hcol]
    simp
  have hu : (fitUnits c).1 = 3085678 * 10 ^ 18 / c.h := rfl
  have hupos : 0 < (fitUnits c).1 / c.outL := by rw [hu]; positivity
  rw [hlast]
  unfold concentration
  constructor
  · intro hn
    obtain ⟨y, hy, hyn⟩ := Option.map_eq_some_iff.1 hn
    cases y with
    | none => rw [hy]; rfl
    | some y => cases hyn
  · intro rs hrs hn
    obtain ⟨y, hy, hyn⟩ := Option.map_eq_some_iff.1 hn
    cases y with
    | none => cases hyn
    | some y =>
      rw [hy]
      have hyr : y * ((fitUnits c).1 / c.outL) = rs := Option.some.inj hyn
      have hy0 : y ≠ 0 := by rintro rfl; exact hrs (by rw [← hyr, zero_mul])
      simp only [Option.join_some, Option.bind_some, hy0, if_false]
      rw [← hyr, ← hu, mul_div_mul_right _ _ hupos.ne']

end Verif.Fits
