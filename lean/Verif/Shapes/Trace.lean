import Verif.Shapes.Lemmas

/-!
# The whole iteration: termination and self-consistency
-/

namespace Verif.Shapes

open Classical in
/-- The selection of a state is the set of particles inside the ellipsoid with the given axes and the
ratios of the state. -/
structure Described (cfg : Config) (st : PState) (major inter minor : Vec ℝ) : Prop where
  frame : Orthonormal major inter minor
  ratios : 0 < st.s ∧ 0 < st.q
  sel : st.sel = (cfg.pts.filter fun p => decide (Inside cfg major inter minor st.q st.s p)).map
    fun p => (p, √(ellipsoidal2 major inter minor st.q st.s (rel cfg p)))

theorem start_described (cfg : Config) (morph : Morph) :
    Described cfg (pureStart cfg morph) ex ey ez where
  frame := std_orthonormal
  ratios := ⟨one_pos, one_pos⟩
  sel := by
    apply select_spec
    · rw [List.forall₂_map_right_iff]
      apply List.forall₂_same.2
      intro p _
      show radius0 cfg p = √(ellipsoidal2 ex ey ez 1 1 (rel cfg p))
      rw [← radius0_sq, Real.sqrt_sq (show 0 ≤ radius0 cfg p from Real.sqrt_nonneg _)]
    · rw [List.forall₂_map_right_iff]
      apply List.forall₂_same.2
      intro p _
      exact initialTest_eq cfg p

theorem ellipsoidal2_nonneg (major inter minor : Vec ℝ) (q s : ℝ) (y : Vec ℝ) :
    0 ≤ ellipsoidal2 major inter minor q s y := by
  unfold ellipsoidal2; positivity

open Classical in
theorem selTensor_described {cfg : Config} {st : PState} {major inter minor : Vec ℝ}
    (h : Described cfg st major inter minor) :
    selTensor cfg st.sel = massTensor cfg
      (fun p => if cfg.reduced then ellipsoidal2 major inter minor st.q st.s (rel cfg p) else 1)
      (cfg.pts.filter fun p => decide (Inside cfg major inter minor st.q st.s p)) := by
  funext i j
  unfold selTensor massTensor
  rw [h.sel, List.map_map, List.map_map]
  congr 2
  · apply List.map_congr_left
    intro p _
    simp only [Function.comp, weight]
    rw [Real.sq_sqrt (ellipsoidal2_nonneg _ _ _ _ _ _)]

theorem sel_ne_nil {cfg : Config} {st st' : PState} (hsol : GoodSolver cfg.solver)
    (h : pureIterate cfg st = some st') : st.sel ≠ [] := by
  intro hnil
  unfold pureIterate at h
  simp only [Option.bind_eq_bind, Option.bind_eq_some_iff] at h
  obtain ⟨t, ht, ⟨qn, sn, err, major, inter, minor⟩, hd, -⟩ := h
  have ht := pureTensor_some ht
  have hE := hsol t (by rw [ht]; exact selTensor_symm cfg _)
  have ht0 : ∀ i j, t i j = 0 := by intro i j; rw [ht, hnil]; simp [selTensor]
  unfold diagonalise at hd
  simp only [Option.bind_eq_bind, Option.bind_eq_some_iff] at hd
  obtain ⟨q2, hq2, -⟩ := hd
  apply (cdiv_some hq2).1
  by_contra hne
  apply hE.nonzero 2
  funext i
  have := hE.eigen 2 i
  rw [ht0, ht0, ht0] at this
  simp only [zero_mul, add_zero] at this
  exact (mul_eq_zero.1 this.symm).resolve_left hne

theorem described_masses {cfg : Config} {st : PState} {major inter minor : Vec ℝ}
    (h : Described cfg st major inter minor) (hm : ∀ p ∈ cfg.pts, 0 ≤ p.m) :
    ∀ pr ∈ st.sel, 0 ≤ pr.1.m := by
  intro pr hpr
  rw [h.sel] at hpr
  obtain ⟨p, hp, rfl⟩ := List.mem_map.1 hpr
  exact hm p (List.mem_of_mem_filter hp)

/-- One iteration. -/
theorem iterate_described {cfg : Config} {st st' : PState} {major inter minor : Vec ℝ}
    (hsol : GoodSolver cfg.solver) (hm : ∀ p ∈ cfg.pts, 0 ≤ p.m)
    (hd : Described cfg st major inter minor) (h : pureIterate cfg st = some st') :
    Described cfg st' st'.morph.major st'.morph.inter st'.morph.minor ∧
    st'.iteration = st.iteration + 1 ∧ st'.morph.d = cfg.d ∧ st'.morph.q = st'.q ∧
    st'.morph.s = st'.s ∧
    (∃ a b c : ℝ, 0 < c ∧ c ≤ b ∧ b ≤ a ∧ st'.q = b / a ∧ st'.s = c / a ∧
      IsEigenvector (selTensor cfg st.sel) (a ^ 2) st'.morph.major ∧
      IsEigenvector (selTensor cfg st.sel) (b ^ 2) st'.morph.inter ∧
      IsEigenvector (selTensor cfg st.sel) (c ^ 2) st'.morph.minor) ∧
    (∀ tol, st'.err ≤ tol → |st'.q - st.q| ≤ tol * st.q ∧ |st'.s - st.s| ≤ tol * st.s) := by
  have hne := sel_ne_nil hsol h
  unfold pureIterate at h
  simp only [Option.bind_eq_bind, Option.bind_eq_some_iff] at h
  obtain ⟨t, ht, ⟨qn, sn, err, maj, int, min⟩, hdg, rs, hrs, tests, hts, h⟩ := h
  obtain rfl := Option.some.inj h
  have ht := pureTensor_some ht
  have hE := hsol t (by rw [ht]; exact selTensor_symm cfg _)
  have hpsd := selTensor_psd cfg st.sel (described_masses hd hm)
  rw [← ht] at hpsd ⊢
  obtain ⟨ho, ⟨a, b, c, ha, hcb, hba, hc, rfl, rfl, e1, e2, e3⟩, hconv⟩ :=
    diagonalise_some hd.ratios.2 hd.ratios.1 hE hpsd hdg
  have hrs' := mapM_map_some _ _ _ _ hrs
  have hts' := mapM_map_some _ _ _ _ hts
  -- some particle exists, hence the ratios are non-zero
  have hq : b / a ≠ 0 ∧ c / a ≠ 0 := by
    rw [hd.sel] at hne
    have : cfg.pts ≠ [] := by rintro h0; apply hne; simp [h0]
    obtain ⟨p, ps, hps⟩ := List.exists_cons_of_ne_nil this
    rw [hps] at hts'
    cases hts' with
    | cons h1 _ =>
      unfold laterTest at h1
      simp only [Option.bind_eq_bind, Option.bind_eq_some_iff] at h1
      obtain ⟨r2, hr2, -⟩ := h1
      obtain ⟨h1, h2, -⟩ := ellRadius2_some hr2
      exact ⟨h1, h2⟩
  have hc' : 0 < c := by
    rcases hc.lt_or_eq with h | h
    · exact h
    · exact absurd (by rw [← h, zero_div]) hq.2
  have hb' : 0 < b := hc'.trans_le hcb
  refine ⟨⟨ho, ⟨div_pos hc' ha, div_pos hb' ha⟩, ?_⟩, rfl, rfl, rfl, rfl,
    ⟨a, b, c, hc', hcb, hba, rfl, rfl, e1, e2, e3⟩, hconv⟩
  apply select_spec
  · refine hrs'.imp ?_
    intro p r hr
    rw [Option.map_eq_some_iff] at hr
    obtain ⟨r2, hr2, rfl⟩ := hr
    obtain ⟨-, -, hr2⟩ := ellRadius2_some hr2
    rw [hr2, toPrinc_eq]; rfl
  · exact hts'.imp fun p b hb => laterTest_some hb

/-! ## Induction over the loop -/

theorem loop_ind {R S : Type} (step : S → Next R S) (I : S → Prop) (Q : R → Prop)
    (hgo : ∀ st st', I st → step st = .go st' → I st')
    (hstop : ∀ st r, I st → step st = .stop r → Q r) :
    ∀ fuel st r, I st → loop step fuel st = some r → Q r := by
  intro fuel
  induction fuel with
  | zero => intro st r _ h; simp [loop] at h
  | succ fuel ih =>
    intro st r hI h
    unfold loop at h
    cases hs : step st with
    | stop r' =>
      rw [hs] at h
      obtain rfl := Option.some.inj h
      exact hstop st _ hI hs
    | go st' =>
      rw [hs] at h
      exact ih st' r (hgo st st' hI hs) h

theorem pureStep_go {cfg : Config} {st st' : PState} (h : pureStep cfg st = .go st') :
    cfg.itMin ≤ (st.sel.length : Int) ∧ (st.iteration : Int) ≤ cfg.wall ∧
      pureIterate cfg st = some st' := by
  unfold pureStep at h
  split at h
  · split at h
    · cases h
    · split at h
      · cases h
      · rename_i h1 h2
        cases hp : pureIterate cfg st with
        | none => rw [hp] at h; cases h
        | some st'' =>
          rw [hp] at h
          cases h
          exact ⟨not_lt.1 h2, not_lt.1 h1, rfl⟩
  · cases h

theorem pureStep_stop {cfg : Config} {st : PState} {m : Morph} (h : pureStep cfg st = .stop (some m)) :
    m = .zero ∨ (st.err ≤ cfg.tol ∧ m = st.morph) := by
  unfold pureStep at h
  split at h
  · split at h
    · cases h; exact Or.inl rfl
    · split at h
      · cases h; exact Or.inl rfl
      · cases hp : pureIterate cfg st with
        | none => rw [hp] at h; cases h
        | some st'' => rw [hp] at h; cases h
  · rename_i he
    cases h
    exact Or.inr ⟨not_lt.1 he, rfl⟩

theorem pureRun_consistent (fuel : Nat) (cfg : Config) (morph m : Morph)
    (hsol : GoodSolver cfg.solver) (hm : ∀ p ∈ cfg.pts, 0 ≤ p.m) (htol : cfg.tol < 1)
    (h : pureRun fuel cfg morph = some (some m)) :
    m = .zero ∨ ∃ major inter minor q s, SelfConsistent cfg m major inter minor q s := by
  refine loop_ind (pureStep cfg)
    (fun st => (∃ major inter minor, Described cfg st major inter minor) ∧ (st.err ≤ cfg.tol →
      ∃ major inter minor q s, SelfConsistent cfg st.morph major inter minor q s))
    (fun r => ∀ m, r = some m →
      m = .zero ∨ ∃ major inter minor q s, SelfConsistent cfg m major inter minor q s)
    ?_ ?_ fuel _ _ ?_ h m rfl
  · rintro st st' ⟨⟨major, inter, minor, hd⟩, -⟩ hgo
    obtain ⟨hmin, -, hit⟩ := pureStep_go hgo
    obtain ⟨hd', -, hrad, hq, hs, ⟨a, b, c, hc, hcb, hba, ea, eb, e1, e2, e3⟩, hconv⟩ :=
      iterate_described hsol hm hd hit
    refine ⟨⟨_, _, _, hd'⟩, fun herr => ⟨major, inter, minor, st.q, st.s, ?_⟩⟩
    exact { frame := hd.frame
            ratios := hd.ratios
            radius := hrad
            enough := by
              rw [hd.sel, List.length_map] at hmin
              exact hmin
            axes := hd'.frame
            eigen := by
              refine ⟨a, b, c, hc, hcb, hba, hq.trans ea, hs.trans eb, ?_⟩
              intro t ht
              rw [ht, ← selTensor_described hd]
              exact ⟨e1, e2, e3⟩
            converged := by
              rw [hq, hs]
              exact hconv _ herr }
  · rintro st r ⟨-, hI⟩ hstop m rfl
    rcases pureStep_stop hstop with h | ⟨he, rfl⟩
    · exact Or.inl h
    · exact Or.inr (hI he)
  · refine ⟨⟨_, _, _, start_described cfg morph⟩, fun he => ?_⟩
    exact absurd he (not_le.2 htol)

/-! ## Termination -/

theorem iterate_iteration {cfg : Config} {st st' : LoopState} (h : iterate cfg st = some st') :
    st'.iteration = st.iteration + 1 := by
  unfold iterate at h
  simp only [Option.bind_eq_bind, Option.bind_eq_some_iff] at h
  obtain ⟨t, ht, ⟨qn, sn, err, maj, int, min⟩, hdg, rs, hrs, tests, hts, h⟩ := h
  obtain rfl := Option.some.inj h
  rfl

theorem loopStep_go {cfg : Config} {st st' : LoopState} (h : loopStep cfg st = .go st') :
    (st.iteration : Int) ≤ cfg.wall ∧ iterate cfg st = some st' := by
  unfold loopStep at h
  split at h
  · split at h
    · cases h
    · split at h
      · cases h
      · rename_i h1 h2
        cases hp : iterate cfg st with
        | none => rw [hp] at h; cases h
        | some st'' =>
          rw [hp] at h
          cases h
          exact ⟨not_lt.1 h1, rfl⟩
  · cases h

theorem loop_terminates (cfg : Config) :
    ∀ (fuel : Nat) (st : LoopState), cfg.wall + 1 < st.iteration + fuel → 0 < fuel →
      (loop (loopStep cfg) fuel st).isSome := by
  intro fuel
  induction fuel with
  | zero => intro st _ h; omega
  | succ fuel ih =>
    intro st h _
    unfold loop
    cases hs : loopStep cfg st with
    | stop r => rfl
    | go st' =>
      obtain ⟨h1, h2⟩ := loopStep_go hs
      have h3 := iterate_iteration h2
      apply ih
      · rw [h3]; push_cast at h ⊢; omega
      · by_contra h0
        have : fuel = 0 := by omega
        subst this
        push_cast at h
        omega

theorem loop_mono {R S : Type} (step : S → Next R S) (fuel fuel' : Nat) (st : S) (r : R)
    (hle : fuel ≤ fuel') (h : loop step fuel st = some r) : loop step fuel' st = some r := by
  induction fuel generalizing st fuel' with
  | zero => simp [loop] at h
  | succ fuel ih =>
    obtain ⟨k, rfl⟩ : ∃ k, fuel' = k + 1 := ⟨fuel' - 1, by omega⟩
    unfold loop at h ⊢
    cases hs : step st with
    | stop r' => rw [hs] at h; exact h
    | go st' =>
      rw [hs] at h
      exact ih k st' (by omega) h

end Verif.Shapes
