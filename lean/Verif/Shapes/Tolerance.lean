import Verif.Shapes.Outcome

/-!
# Tolerances of 1 and more (C35, C36)

The iteration starts with `err = 1.0` (shape_profs_algos.pyx:70, 195, 316, 439), so that with `IT_TOL >= 1` it is never entered.
-/

namespace Verif.Shapes

theorem pureOne_large (cfg : Config) (h : 1 ≤ cfg.tol) (morph : Morph) : pureOne cfg morph = some morph := by
  unfold pureOne pureRun loop
  have : pureStep cfg (pureStart cfg morph) = .stop (some morph) := by
    unfold pureStep
    exact if_neg (not_lt.2 h)
  rw [this]
  rfl

theorem pureLoop_large (st : Settings) (h : 1 ≤ st.tol) (pts : List Pt) (center srcCenter : Vec ℝ)
    (rows : List ((ℝ × Option ℝ) × Morph)) : pureLoop st pts center srcCenter rows = some (rows.map Prod.snd) := by
  unfold pureLoop
  induction rows with
  | nil => rfl
  | cons row rows ih =>
    rw [List.mapM_cons, ih, pureOne_large _ h]
    rfl

/-- C35, C36. With a tolerance of 1 or more no object has a shape: neither axis ratios nor any component of an axis is reported, in
all four catalogues. -/
theorem C35_large_tolerance (st : Settings) (h : 1 ≤ st.tol) (kind : Kind) (o : ObjData) (rows : List Morph)
    (hr : aloneShapes st kind o = some rows) : ∀ m ∈ rows, (report m).q = none ∧ (report m).s = none ∧
      ∀ i, (report m).major i = none ∧ (report m).inter i = none ∧ (report m).minor i = none := by
  have key : ∀ m : Morph, m.q = 0 → m.s = 0 → m.major = 0 → m.inter = 0 → m.minor = 0 →
      (report m).q = none ∧ (report m).s = none ∧
      ∀ i, (report m).major i = none ∧ (report m).inter i = none ∧ (report m).minor i = none := by
    intro m h1 h2 h3 h4 h5
    simp [report, nanZero, h1, h2, h3, h4, h5]
  have hl : ∀ pts c sc r cols, pureLocal st pts c sc r cols = some rows → ∀ m ∈ rows,
      m.q = 0 ∧ m.s = 0 ∧ m.major = 0 ∧ m.inter = 0 ∧ m.minor = 0 := by
    intro pts c sc r cols hp m hm
    unfold pureLocal at hp
    split at hp
    · obtain rfl := Option.some.inj hp
      rw [List.eq_of_mem_replicate hm]; exact ⟨rfl, rfl, rfl, rfl, rfl⟩
    · split at hp
      · obtain rfl := Option.some.inj hp
        rw [List.eq_of_mem_replicate hm]; exact ⟨rfl, rfl, rfl, rfl, rfl⟩
      · rw [pureLoop_large st h] at hp
        obtain rfl := Option.some.inj hp
        rw [List.map_map] at hm
        obtain ⟨k, -, rfl⟩ := List.mem_map.1 hm
        exact ⟨rfl, rfl, rfl, rfl, rfl⟩
  have hg : ∀ pts c sc r cols, pureGlobal st pts c sc r cols = some rows → ∀ m ∈ rows,
      m.q = 0 ∧ m.s = 0 ∧ m.major = 0 ∧ m.inter = 0 ∧ m.minor = 0 := by
    intro pts c sc r cols hp m hm
    unfold pureGlobal at hp
    split at hp
    · obtain rfl := Option.some.inj hp
      rw [List.eq_of_mem_replicate hm]; exact ⟨rfl, rfl, rfl, rfl, rfl⟩
    · rw [pureLoop_large st h] at hp
      obtain rfl := Option.some.inj hp
      rw [List.map_replicate] at hm
      rw [List.eq_of_mem_replicate hm]; exact ⟨rfl, rfl, rfl, rfl, rfl⟩
  intro m hm
  have : m.q = 0 ∧ m.s = 0 ∧ m.major = 0 ∧ m.inter = 0 ∧ m.minor = 0 := by
    unfold aloneShapes at hr
    cases kind with
    | localShape => exact hl _ _ _ _ _ hr m hm
    | globalShape => exact hg _ _ _ _ _ hr m hm
    | localVel =>
      obtain ⟨vc, -, hr⟩ := Option.bind_eq_some_iff.1 hr
      exact hl _ _ _ _ _ hr m hm
    | globalVel =>
      obtain ⟨vc, -, hr⟩ := Option.bind_eq_some_iff.1 hr
      exact hg _ _ _ _ _ hr m hm
  exact key m this.1 this.2.1 this.2.2.1 this.2.2.2.1 this.2.2.2.2

/-- There is always a result: the hypothesis of `C35_large_tolerance` is met by every object in the catalogues of positions. -/
theorem large_tolerance_result (st : Settings) (h : 1 ≤ st.tol) (o : ObjData) :
    (aloneShapes st .localShape o).isSome ∧ (aloneShapes st .globalShape o).isSome := by
  unfold aloneShapes pureLocal pureGlobal
  simp only [pureLoop_large st h]
  constructor
  · split
    · rfl
    · split <;> rfl
  · split <;> rfl

end Verif.Shapes
