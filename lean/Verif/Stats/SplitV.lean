import Verif.Stats.SplitProps

/-!
# Mass bins with a further quantity (C45)

* `M_split` with `v` (`cosmic_profiles/common/cosmo_tools.py:221-270`)
-/

namespace Verif.Stats

/-- `M_split` with the optional quantity `v` (major axes), cosmo_tools.py:221-270: the results without `v` and `v_groups`.
`none` = exception.  Simplification: an array `v`, as long as `m`. -/
def mSplitV {K C V : Type} (args : List Nat) (m : List K) (center : List C) (v : List V) (nb : Int) :
    Option (Split K C × List (List V)) :=
  if nb = 0 then none
  else
    let chunk := chunkSize m.length nb
    if chunk = 0 then some (⟨[], [], [], []⟩, [])
    else (mSplit args m center nb).bind fun sp =>
      (getBlocks (args.filterMap fun i => v[i]?) chunk).bind fun vGroups => some (sp, vGroups)

variable {K : Type} [LinearOrder K]

theorem mSplit_groups {C V : Type} (args : List Nat) (m : List K) (center : List C) (v : List V) (nb : Int)
    (sp : Split K C) (spv : Split K V) (h : mSplit args m center nb = some sp) (hv : mSplit args m v nb = some spv) :
    mSplitV args m center v nb = some (sp, spv.centerGroups) ∧ sp.idxGroups = spv.idxGroups := by
  unfold mSplitV
  rw [h]
  unfold mSplit at h hv
  dsimp only at h hv ⊢
  by_cases h0 : nb = 0
  · rw [if_pos h0] at h; cases h
  rw [if_neg h0] at h hv ⊢
  by_cases hc : chunkSize m.length nb = 0
  · rw [if_pos hc] at h hv ⊢
    cases h
    cases hv
    exact ⟨rfl, rfl⟩
  rw [if_neg hc] at h hv ⊢
  obtain ⟨mg, hm, h⟩ := Option.bind_eq_some_iff.1 h
  obtain ⟨cg, hcg, h⟩ := Option.bind_eq_some_iff.1 h
  obtain ⟨e, he, h⟩ := Option.bind_eq_some_iff.1 h
  obtain ⟨mg', hm', hv⟩ := Option.bind_eq_some_iff.1 hv
  obtain ⟨vg, hvg, hv⟩ := Option.bind_eq_some_iff.1 hv
  obtain ⟨e', he', hv⟩ := Option.bind_eq_some_iff.1 hv
  rw [hm] at hm'
  obtain rfl := Option.some.inj hm'
  obtain rfl := Option.some.inj h
  obtain rfl := Option.some.inj hv
  rw [hvg]
  exact ⟨rfl, rfl⟩

/-- C45 for a further quantity, such as the major axes: the bins are those without it, and the listed values are those of the
objects of the bin, in the same order as the masses and centers. -/
theorem C45_vectors {C V : Type} (args : List Nat) (m : List K) (center : List C) (v : List V)
    (hl : center.length = m.length) (hv : v.length = m.length) (ha : IsArgsort args m) (nb : Nat) (hnb : 0 < nb) :
    ∃ sp vg, mSplit args m center (nb : Int) = some sp ∧ mSplitV args m center v (nb : Int) = some (sp, vg) ∧
      vg.map (List.map some) = sp.idxGroups.map (List.map fun i => v[i]?) := by
  obtain ⟨sp, h, -⟩ := C45_ordered_partition args m center hl ha nb hnb
  obtain ⟨spv, h', -, -, -, -, -, hg⟩ := C45_ordered_partition args m v hv ha nb hnb
  obtain ⟨e1, e2⟩ := mSplit_groups args m center v nb sp spv h h'
  exact ⟨sp, spv.centerGroups, h, e1, by rw [hg, e2]⟩

/-- Three objects in two bins. -/
example : mSplitV [2, 0, 1] [2, 3, 1] ["a", "b", "c"] [20, 30, 10] 2 =
    some (⟨[1, 3, 3], [[1, 2], [3]], [["c", "a"], ["b"]], [[2, 0], [1]]⟩, [[10, 20], [30]]) := by decide

end Verif.Stats
