import Verif.Catalogue.Halo
import Mathlib.Tactic.NormNum

/-!
# Catalogue properties C16–C21, C74
-/

namespace Verif.Catalogue

variable {P R : Type}

/-! ## C16, C74: selections -/

/-- A meaningful selection: at least one object, no object twice, only numbers of existing objects. -/
def Meaningful (sel : List ℚ) (nb : Nat) : Prop :=
  sel ≠ [] ∧ sel.Nodup ∧ ∀ x ∈ sel, ∃ n : Nat, x = n ∧ n < nb

theorem maxOf_lt (l : List ℚ) (h : l ≠ []) (b : ℚ) : maxOf l < b ↔ ∀ x ∈ l, x < b := by
  induction l with
  | nil => exact absurd rfl h
  | cons x xs ih =>
    cases xs with
    | nil => simp [maxOf]
    | cons y ys =>
      have := ih (by simp)
      simp only [maxOf, max_lt_iff, List.mem_cons, forall_eq_or_imp] at this ⊢
      rw [this]

theorem eq_round_iff (x : ℚ) : x = ((round x : ℤ) : ℚ) ↔ ∃ z : ℤ, x = z :=
  ⟨fun h => ⟨_, h⟩, by rintro ⟨z, rfl⟩; rw [round_intCast]⟩

theorem isValidSelection_iff (sel : List ℚ) (nb : Nat) :
    isValidSelection sel nb = .ok true ↔ Meaningful sel nb := by
  unfold isValidSelection Meaningful
  have hf : ∀ (q : ℚ → Bool), (sel.filter q).length ≠ 0 ↔ ∃ x ∈ sel, q x = true := by
    intro q
    rw [Ne, List.length_eq_zero_iff, List.filter_eq_nil_iff]; push Not; rfl
  have hd : sel.dedup.length ≠ sel.length ↔ ¬ sel.Nodup := by
    rw [not_iff_not]
    exact ⟨fun h => List.dedup_eq_self.1 ((List.dedup_sublist sel).eq_of_length h),
      fun h => by rw [List.dedup_eq_self.2 h]⟩
  simp only [hf, hd]
  by_cases h0 : sel = []
  · simp [h0]
  rw [if_neg (by simpa using h0)]
  by_cases h1 : ∃ x ∈ sel, decide (x ≠ ((round x : ℤ) : ℚ)) = true
  · rw [if_pos h1]
    obtain ⟨x, hx, hr⟩ := h1
    simp only [reduceCtorEq, false_iff]
    rintro ⟨-, -, h⟩
    obtain ⟨n, rfl, -⟩ := h x hx
    exact (of_decide_eq_true hr) (by rw [round_natCast]; simp)
  rw [if_neg h1]
  push Not at h1
  by_cases h2 : ∃ x ∈ sel, decide (x < 0) = true
  · rw [if_pos h2]
    obtain ⟨x, hx, hr⟩ := h2
    simp only [reduceCtorEq, false_iff]
    rintro ⟨-, -, h⟩
    obtain ⟨n, rfl, -⟩ := h x hx
    exact absurd (of_decide_eq_true hr) (not_lt.2 (Nat.cast_nonneg n))
  rw [if_neg h2]
  push Not at h2
  by_cases h3 : sel.Nodup
  · rw [if_neg (by simpa using h3)]
    by_cases h4 : (nb : ℚ) ≤ maxOf sel
    · rw [if_pos h4]
      simp only [reduceCtorEq, false_iff]
      rintro ⟨-, -, h⟩
      apply absurd h4
      rw [not_le, maxOf_lt sel h0]
      intro x hx
      obtain ⟨n, rfl, hn⟩ := h x hx
      exact_mod_cast hn
    · rw [if_neg h4]
      simp only [true_iff]
      refine ⟨h0, h3, fun x hx => ?_⟩
      rw [not_le, maxOf_lt sel h0] at h4
      have hr : x = ((round x : ℤ) : ℚ) := by
        by_contra hc; exact h1 x hx (decide_eq_true hc)
      have hn : 0 ≤ x := by
        by_contra hc; exact h2 x hx (decide_eq_true (not_le.1 hc))
      have hlt := h4 x hx
      rw [hr] at hn hlt
      have hz : 0 ≤ round x := by exact_mod_cast hn
      obtain ⟨n, hn'⟩ := Int.eq_ofNat_of_zero_le hz
      rw [hn'] at hr hlt
      refine ⟨n, by simpa using hr, ?_⟩
      simpa using hlt
  · rw [if_pos h3]
    simp [h3]

/-- C16. A selection given as an array is accepted, unchanged, iff it is meaningful; otherwise an
error is raised.  The same holds for a list of integers. -/
theorem C16_selection (sel : List ℚ) (nb : Nat) :
    (Meaningful sel nb → acceptSelection (.array sel) nb = .ok sel) ∧
    (¬ Meaningful sel nb → ∃ e, acceptSelection (.array sel) nb = .error e) ∧
    ((∀ x ∈ sel, ∃ z : ℤ, x = z) →
      acceptSelection (.list sel) nb = acceptSelection (.array sel) nb) := by
  refine ⟨fun h => ?_, fun h => ?_, fun h => ?_⟩
  · simp only [acceptSelection, (isValidSelection_iff sel nb).2 h]
  · unfold acceptSelection
    cases hv : isValidSelection sel nb with
    | error e => exact ⟨e, by simp [hv]⟩
    | ok b =>
      refine absurd ((isValidSelection_iff sel nb).1 ?_) h
      have : b = true := by
        unfold isValidSelection at hv
        split_ifs at hv
        simpa using hv.symm
      rw [hv, this]
  · have : sel.map truncate = sel := by
      conv_rhs => rw [← List.map_id sel]
      apply List.map_congr_left
      intro x hx
      obtain ⟨z, rfl⟩ := h x hx
      simp [truncate]
    simp only [acceptSelection, this]

example : acceptSelection (.array [3, 0, 2]) 4 = .ok [3, 0, 2] :=
  (C16_selection _ _).1 ⟨by simp, by norm_num, by
    intro x hx
    simp only [List.mem_cons, List.not_mem_nil, or_false] at hx
    rcases hx with rfl | rfl | rfl
    · exact ⟨3, by norm_num, by norm_num⟩
    · exact ⟨0, by norm_num, by norm_num⟩
    · exact ⟨2, by norm_num, by norm_num⟩⟩

example : ∃ e, acceptSelection (.array [3, 0, 4]) 4 = .error e := by
  refine (C16_selection _ _).2.1 ?_
  rintro ⟨-, -, h⟩
  obtain ⟨n, h1, h2⟩ := h 4 (by simp)
  have : n = 4 := by exact_mod_cast h1.symm
  omega

/-- C74 (arrays). A selection array containing a number which is not an integer is rejected. -/
theorem C74_non_integers_partial (sel : List ℚ) (nb : Nat) (x : ℚ) (hx : x ∈ sel)
    (hz : ∀ z : ℤ, x ≠ z) : ∃ e, acceptSelection (.array sel) nb = .error e := by
  refine (C16_selection sel nb).2.1 ?_
  rintro ⟨-, -, h⟩
  obtain ⟨n, rfl, -⟩ := h x hx
  exact hz n (by simp)

example : ∃ e, acceptSelection (.array [0, 3/2]) 2 = .error e := by
  refine C74_non_integers_partial [0, 3/2] 2 (3/2) (by simp) ?_
  intro z hz
  have h2 : (3 : ℚ) = 2 * z := by linarith
  have : (3 : ℤ) = 2 * z := by exact_mod_cast h2
  omega

/-- C74 is false for Python lists: `[0, 1.5]` is silently taken as `[0, 1]`. -/
theorem C74_non_integer_list_refuted : acceptSelection (.list [0, 3/2]) 2 = .ok [0, 1] := by
  have : ([0, 3/2] : List ℚ).map truncate = [0, 1] := by
    have h : ⌊(3/2 : ℚ)⌋ = 1 := by norm_num [Int.floor_eq_iff]
    have h3 : (0 : ℚ) ≤ 3/2 := by norm_num
    simp [truncate, h, h3]
  have hm : Meaningful [0, 1] 2 := by
    refine ⟨by simp, by norm_num, ?_⟩
    intro x hx
    simp only [List.mem_cons, List.not_mem_nil, or_false] at hx
    rcases hx with rfl | rfl
    · exact ⟨0, by norm_num, by norm_num⟩
    · exact ⟨1, by norm_num, by norm_num⟩
  simp only [acceptSelection, this, (isValidSelection_iff _ _).2 hm]

/-! ## C17: sub-selections -/

/-- C17. For objects with particle lists `objs` (stored one behind the other) and a selection `sel` of
existing object numbers, whose particle lists are `chosen`: the sub-catalogue is the concatenation of
the chosen lists, and cutting it by the sizes of the chosen objects gives the `k`-th chosen list back. -/
theorem C17_subselection (objs : List (List P)) (sel : List Nat) (chosen : List (List P))
    (hsel : sel.map (objs[·]?) = chosen.map some) :
    getSubSetIdxCat objs.flatten (objs.map List.length) sel = some chosen.flatten ∧
    ∀ k o, chosen[k]? = some o →
      objSlice chosen.flatten (chosen.map List.length) k = some o :=
  ⟨by simpa [getSubSetIdxCat] using getSubSet_aux objs sel chosen hsel [],
    fun k o h => objSlice_eq chosen k o h⟩

example : getSubSetIdxCat [7, 8, 9, 4, 5] [2, 0, 1, 2] [3, 0, 1] = some [4, 5, 7, 8] :=
  (C17_subselection [[7, 8], [], [9], [4, 5]] [3, 0, 1] [[4, 5], [7, 8], []] rfl).1

/-! ## C18: resolution cut -/

/-- The objects kept: those with at least `minPtcs` particles, in the original order, with their radii. -/
def kept (minPtcs : Int) (objs : List (List P × R)) : List (List P × R) :=
  objs.filter fun o => decide (minPtcs ≤ (o.1.length : Int))

/-- C18. Constructing a catalogue from `objs` (particle lists with radii): the catalogue consists of
the particle lists, radii (converted to internal units) and sizes of exactly the kept objects. -/
theorem C18_resolution_cut (conv : R → R) (minPtcs : Int) (objs : List (List P × R))
    (hne : objs ≠ []) :
    construct conv minPtcs (.nested (objs.map Prod.fst)) (.array (objs.map Prod.snd)) =
      some (((kept minPtcs objs).map Prod.fst).flatten,
        (kept minPtcs objs).map (fun o => conv o.2),
        (kept minPtcs objs).map (fun o => o.1.length)) := by
  have hzip : ∀ {S : Type} (f : List P × R → S), (objs.map Prod.fst).zip (objs.map f) =
      objs.map fun o => (o.1, f o) := by
    intro S f
    rw [List.zip_map']
  have h1 : fancy (objs.map Prod.snd) (nonzero (objPass minPtcs (objs.map Prod.fst))) =
      some ((kept minPtcs objs).map Prod.snd) := by
    rw [nonzero_pass, fancy_pass (fun o => decide ((o.length : Int) ≥ minPtcs)) _ _ (by simp), hzip]
    rw [List.filter_map, List.map_map]; rfl
  have h2 : fancy (objSizes minPtcs (objs.map Prod.fst)) (nonzero (objPass minPtcs (objs.map Prod.fst))) =
      some ((kept minPtcs objs).map fun o => o.1.length) := by
    rw [nonzero_pass, fancy_pass (fun o => decide ((o.length : Int) ≥ minPtcs)) _ _ (by simp [objSizes])]
    rw [show objSizes minPtcs (objs.map Prod.fst) = objs.map (fun o =>
      if (o.1.length : Int) ≥ minPtcs then o.1.length else 0) by simp [objSizes], hzip]
    rw [List.filter_map, List.map_map]
    congr 1
    apply List.map_congr_left
    intro o ho
    have : minPtcs ≤ (o.1.length : Int) := by simpa using (List.mem_filter.1 ho).2
    simp [this]
  have h3 : catArr (objPass minPtcs (objs.map Prod.fst)) (objs.map Prod.fst) =
      ((kept minPtcs objs).map Prod.fst).flatten := by
    rw [catArr_eq, List.filter_map]; rfl
  obtain ⟨o, os, rfl⟩ := List.exists_cons_of_ne_nil hne
  unfold construct
  simp only [h1, h2, h3]
  simp [List.map_map, Function.comp_def]

example : construct (fun x : ℚ => 2 * x) 2 (.nested [[1, 2], [3], [4, 5, 6]]) (.array [10, 20, 30]) =
    some ([1, 2, 4, 5, 6], [2 * 10, 2 * 30], [2, 3]) :=
  C18_resolution_cut (fun x : ℚ => 2 * x) 2 [([1, 2], 10), ([3], 20), ([4, 5, 6], 30)] (by simp)

/-! ## C19–C21: halo catalogue -/

/-- C21. Whatever the tables (consistent or not), all schedules of the parallel loops give the same
result, and there is one. -/
theorem C21_schedule_independent (zero : R) (nbShs shLen fofSizes : List Int) (r200 : List R)
    (minPtcs : Int) : ∃! out, CalcObjCat zero nbShs shLen fofSizes r200 minPtcs out := by
  obtain ⟨out, h⟩ := calcObjCat_exists zero nbShs shLen fofSizes r200 minPtcs
  exact ⟨out, h, fun out' h' => calcObjCat_unique h' h⟩

/-- C19. For the tables of a non-empty list of groups, the catalogue consists of the particles, radii
and sizes of the expected objects, whatever the schedule. -/
theorem C19_catalogue (zero : R) (gs : List (Group R)) (hne : gs ≠ []) (minPtcs : Int)
    (out : Option (List Int × List R × List Int)) :
    CalcObjCat zero (tableNbShs gs) (tableShLen gs) (tableFofSizes gs) (tableR200 gs) minPtcs out ↔
      out = some (((expectedObjects minPtcs gs).map fun o => o.1).flatten,
        (expectedObjects minPtcs gs).map (fun o => o.2.1),
        (expectedObjects minPtcs gs).map (fun o => o.2.2)) := by
  have fwd : ∀ out, CalcObjCat zero (tableNbShs gs) (tableShLen gs) (tableFofSizes gs) (tableR200 gs)
      minPtcs out → out = some (((expectedObjects minPtcs gs).map fun o => o.1).flatten,
        (expectedObjects minPtcs gs).map (fun o => o.2.1),
        (expectedObjects minPtcs gs).map (fun o => o.2.2)) := by
    intro out h
    cases h with
    | noGroups h => exact absurd (List.length_eq_zero_iff.1 (by simpa [tableNbShs] using h)) hne
    | loop1Fails h =>
      obtain ⟨its, hi⟩ := phase1_total gs minPtcs
      rw [h] at hi; cases hi
    | loop2Fails mem passing h1 h2 =>
      obtain ⟨its, hi⟩ := phase2_total h1
      rw [h2] at hi; cases hi
    | finished mem passing h1 its ws h2 s2 => rw [finished_eq h1 h2 s2]
  refine ⟨fwd out, ?_⟩
  rintro rfl
  obtain ⟨o, h⟩ := calcObjCat_exists zero (tableNbShs gs) (tableShLen gs) (tableFofSizes gs)
    (tableR200 gs) minPtcs
  rw [← fwd o h]; exact h

/-- Example: four groups, the second without subhalos, the third below the resolution limit. -/
example (out) (h : CalcObjCat (0 : ℚ) [2, 0, 1, 1] [3, 9, 1, 2] [14, 5, 2, 4] [7, 8, 9, 6] 2 out) :
    out = some ([0, 1, 2, 21, 22], [7, 6], [3, 2]) :=
  (C19_catalogue (0 : ℚ) [⟨14, 7, [3, 9]⟩, ⟨5, 8, []⟩, ⟨2, 9, [1]⟩, ⟨4, 6, [2]⟩] (by simp) 2 out).1 h

/-- The result of this example does occur. -/
example : CalcObjCat (0 : ℚ) [2, 0, 1, 1] [3, 9, 1, 2] [14, 5, 2, 4] [7, 8, 9, 6] 2
    (some ([0, 1, 2, 21, 22], [7, 6], [3, 2])) :=
  (C19_catalogue (0 : ℚ) [⟨14, 7, [3, 9]⟩, ⟨5, 8, []⟩, ⟨2, 9, [1]⟩, ⟨4, 6, [2]⟩] (by simp) 2 _).2 rfl

theorem startOf_le (gs : List (Group R)) {p q : Nat} (g : Group R) (hg : gs[p]? = some g)
    (hpq : p < q) : startOf gs p + g.fofSize ≤ startOf gs q := by
  unfold startOf
  have h1 : gs.take (p + 1) = gs.take p ++ [g] := by rw [List.take_add_one, hg]; rfl
  have h2 : gs.take q = gs.take (p + 1) ++ (gs.drop (p + 1)).take (q - (p + 1)) := by
    rw [← List.take_add]; congr 1; omega
  rw [h2, h1]; simp [List.sum_append]

theorem objectOf_bounds (gs : List (Group R)) (m : Int)
    (hc : ∀ g ∈ gs, ∀ c, g.subs.head? = some c → c ≤ g.fofSize) {p : Nat} {o : List Int × R × Int}
    (h : objectOf m gs p = some o) :
    ∃ g, gs[p]? = some g ∧ o.1.Nodup ∧ ∀ x ∈ o.1, (startOf gs p : Int) ≤ x ∧
      x < (startOf gs p : Int) + g.fofSize := by
  unfold objectOf at h
  split at h
  · rename_i f r c cs hg
    split at h
    · obtain rfl := Option.some.inj h
      have := hc _ (List.mem_of_getElem? hg) c rfl
      refine ⟨_, hg, ?_, ?_⟩
      · apply List.Nodup.map _ List.nodup_range
        intro a b hab
        simp only at hab
        omega
      · intro x hx
        obtain ⟨k, hk, rfl⟩ := List.mem_map.1 hx
        have : k < c := by simpa using hk
        simp only at *
        omega
    · cases h
  · cases h

/-- C20. If no central subhalo is larger than its group, no particle belongs to two objects (or occurs
twice in one), and all particle numbers refer to particles in groups. -/
theorem C20_disjoint (zero : R) (gs : List (Group R)) (minPtcs : Int)
    (hc : ∀ g ∈ gs, ∀ c, g.subs.head? = some c → c ≤ g.fofSize)
    (cat : List Int) (r200 : List R) (sizes : List Int)
    (h : CalcObjCat zero (tableNbShs gs) (tableShLen gs) (tableFofSizes gs) (tableR200 gs) minPtcs
      (some (cat, r200, sizes))) :
    cat.Nodup ∧ ∀ x ∈ cat, 0 ≤ x ∧ x < ((gs.map Group.fofSize).sum : Int) := by
  have hne : gs ≠ [] := by
    rintro rfl
    cases h with
    | finished mem passing h1 => exact h1.groups rfl
  have := (C19_catalogue zero gs hne minPtcs _).1 h
  simp only [Option.some.injEq, Prod.mk.injEq] at this
  obtain ⟨rfl, -, -⟩ := this
  constructor
  · rw [List.nodup_flatten]
    constructor
    · intro l hl
      obtain ⟨o, ho, rfl⟩ := List.mem_map.1 hl
      obtain ⟨p, -, hp⟩ := List.mem_filterMap.1 ho
      exact (objectOf_bounds gs minPtcs hc hp).choose_spec.2.1
    · rw [List.pairwise_map]
      unfold expectedObjects
      rw [List.pairwise_filterMap]
      refine List.Pairwise.imp ?_ List.pairwise_lt_range
      intro p q hpq o ho o' ho' x hx hx'
      obtain ⟨g, hg, -, hb⟩ := objectOf_bounds gs minPtcs hc ho
      obtain ⟨g', hg', -, hb'⟩ := objectOf_bounds gs minPtcs hc ho'
      have h1 := hb x hx
      have h2 := hb' x hx'
      have := startOf_le gs g hg hpq
      omega
  · intro x hx
    obtain ⟨l, hl, hx⟩ := List.mem_flatten.1 hx
    obtain ⟨o, ho, rfl⟩ := List.mem_map.1 hl
    obtain ⟨p, -, hp⟩ := List.mem_filterMap.1 ho
    obtain ⟨g, hg, -, hb⟩ := objectOf_bounds gs minPtcs hc hp
    have h1 := hb x hx
    have hlt := (List.getElem?_eq_some_iff.1 hg).1
    have := startOf_le gs g hg hlt
    unfold startOf at this h1
    rw [List.take_length] at this
    omega

example (cat r200 sizes)
    (h : CalcObjCat (0 : ℚ) [2, 1] [3, 9, 2] [14, 4] [7, 6] 2 (some (cat, r200, sizes))) :
    cat.Nodup ∧ ∀ x ∈ cat, 0 ≤ x ∧ x < (14 + 4 : Int) :=
  C20_disjoint (0 : ℚ) [⟨14, 7, [3, 9]⟩, ⟨4, 6, [2]⟩] 2 (by simp) cat r200 sizes h

end Verif.Catalogue
