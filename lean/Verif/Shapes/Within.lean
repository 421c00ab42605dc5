import Verif.Shapes.Flat
import Verif.Shapes.Objects

/-!
# The shape at a radius is made of the matter within that radius

The semi-major axis of all ellipsoids of the iteration is the radius `d`, so particles at the distance `d` or farther from the center are never selected.
-/

namespace Verif.Shapes

/-- Nearer to the center than `d`. -/
noncomputable def near (center : Vec ℝ) (d : ℝ) (p : Pt) : Bool := decide (Binning.dist2 center p.x < d ^ 2)

/-- The same problem without the particles that are not within the radius `d`. -/
noncomputable def Config.inner (cfg : Config) : Config :=
  ⟨cfg.pts.filter (near cfg.center cfg.d), cfg.center, cfg.srcCenter, cfg.d, cfg.deltaD, cfg.tol, cfg.wall, cfg.itMin, cfg.reduced, cfg.solver⟩

/-- Lengths in an orthonormal frame. -/
theorem Orthonormal.parseval {u v w : Vec ℝ} (h : Orthonormal u v w) (y : Vec ℝ) :
    dot u y ^ 2 + dot v y ^ 2 + dot w y ^ 2 = y 0 ^ 2 + y 1 ^ 2 + y 2 ^ 2 := by
  have hz := Orthonormal.complete (n := fun i => y i - (dot u y * u i + dot v y * v i + dot w y * w i)) h ?_ ?_ ?_
  · have e : ∀ i, y i = dot u y * u i + dot v y * v i + dot w y * w i := by
      intro i
      have := congrFun hz i
      simp only [Pi.zero_apply] at this
      linarith
    obtain ⟨a, b, c, d, e', f⟩ := h
    have h1 : y 0 ^ 2 + y 1 ^ 2 + y 2 ^ 2 = y 0 * (dot u y * u 0 + dot v y * v 0 + dot w y * w 0) +
        y 1 * (dot u y * u 1 + dot v y * v 1 + dot w y * w 1) + y 2 * (dot u y * u 2 + dot v y * v 2 + dot w y * w 2) := by
      rw [← e 0, ← e 1, ← e 2]; ring
    rw [h1]
    unfold dot
    ring
  all_goals
    obtain ⟨a, b, c, d, e', f⟩ := h
    have lin : ∀ x : Vec ℝ, dot x (fun i => y i - (dot u y * u i + dot v y * v i + dot w y * w i)) =
        dot x y - (dot u y * dot x u + dot v y * dot x v + dot w y * dot x w) := by
      intro x
      generalize dot u y = α
      generalize dot v y = β
      generalize dot w y = γ
      unfold dot
      ring
    rw [lin]
  · rw [a, d, e']; ring
  · rw [b, dot_comm v u, d, f]; ring
  · rw [c, dot_comm w u, dot_comm w v, e', f]; ring

theorem rel_sq (cfg : Config) (p : Pt) : rel cfg p 0 ^ 2 + rel cfg p 1 ^ 2 + rel cfg p 2 ^ 2 = Binning.dist2 cfg.center p.x := by
  unfold rel Binning.dist2
  ring

/-- Ellipsoids with semi-major axis `d` are within the sphere of radius `d`. -/
theorem le_ellipsoidal2 {u v w : Vec ℝ} (h : Orthonormal u v w) {q s : ℝ} (hq : 0 < q) (hq1 : q ≤ 1) (hs : 0 < s) (hs1 : s ≤ 1) (cfg : Config) (p : Pt) :
    Binning.dist2 cfg.center p.x ≤ ellipsoidal2 u v w q s (rel cfg p) := by
  rw [← rel_sq, ← h.parseval]
  unfold ellipsoidal2
  have key : ∀ x r : ℝ, 0 < r → r ≤ 1 → x ^ 2 ≤ x ^ 2 / r ^ 2 := by
    intro x r hr hr1
    rw [le_div_iff₀ (by positivity)]
    have : r ^ 2 ≤ 1 := by nlinarith
    nlinarith [sq_nonneg x]
  linarith [key (dot v (rel cfg p)) q hq hq1, key (dot w (rel cfg p)) s hs hs1]

/-- Without selected particles there is no shape. -/
theorem diagonalise_nil {cfg : Config} (hsol : GoodSolver cfg.solver) {t : Tensor} (ht : pureTensor cfg [] = some t) (q s : ℝ) :
    diagonalise cfg t q s = none := by
  have hts := pureTensor_some ht
  have hz : ∀ i j, t i j = 0 := by
    intro i j
    rw [hts]
    unfold selTensor
    simp
  have hE := hsol t (by intro i j; rw [hz, hz])
  have h2 : (cfg.solver t).val 2 = 0 := by
    by_contra hne
    apply hE.nonzero 2
    funext i
    have := hE.eigen 2 i
    rw [hz, hz, hz] at this
    simp only [zero_mul, add_zero] at this
    rcases mul_eq_zero.1 this.symm with h | h
    · exact absurd h hne
    · exact h
  unfold diagonalise cdiv
  simp only [h2]
  rfl

section
variable {cfg : Config} (hsol : GoodSolver cfg.solver) (hm : ∀ p ∈ cfg.pts, 0 ≤ p.m)
include hsol hm

theorem inner_iterate (st : PState) (hq : 0 < st.q) (hs : 0 < st.s) (hsel : ∀ pr ∈ st.sel, pr.1 ∈ cfg.inner.pts) :
    pureIterate cfg st = pureIterate cfg.inner st ∧
    ∀ st', pureIterate cfg st = some st' → 0 < st'.q ∧ 0 < st'.s ∧ ∀ pr ∈ st'.sel, pr.1 ∈ cfg.inner.pts := by
  have hT : pureTensor cfg.inner st.sel = pureTensor cfg st.sel := rfl
  have hD : diagonalise cfg.inner = diagonalise cfg := rfl
  unfold pureIterate
  rw [hT, hD]
  cases ht : pureTensor cfg st.sel with
  | none => exact ⟨rfl, fun st' h => by cases h⟩
  | some t =>
    simp only [Option.bind_eq_bind, Option.bind_some]
    cases hd : diagonalise cfg t st.q st.s with
    | none => exact ⟨rfl, fun st' h => by cases h⟩
    | some r =>
      obtain ⟨qn, sn, err, major, inter, minor⟩ := r
      have hne : st.sel ≠ [] := by
        intro h0
        rw [h0] at ht
        rw [diagonalise_nil hsol ht] at hd
        cases hd
      obtain ⟨pr₀, hpr₀⟩ := List.exists_mem_of_ne_nil _ hne
      have hp₀ := hsel pr₀ hpr₀
      have hts := pureTensor_some ht
      have hmsel : ∀ pr ∈ st.sel, 0 ≤ pr.1.m := fun pr hpr => hm pr.1 (List.mem_of_mem_filter (hsel pr hpr))
      obtain ⟨hO, ⟨a, b, c, ha, hcb, hba, hc0, rfl, rfl, -⟩, -⟩ := diagonalise_some hq hs
        (hsol t (by rw [hts]; exact selTensor_symm cfg _)) (by rw [hts]; exact selTensor_psd cfg _ hmsel) hd
      clear hd ht hts hT hD
      simp only [Option.bind_some]
      have hq1 : b / a ≤ 1 := (div_le_one ha).2 hba
      have hs1 : c / a ≤ 1 := (div_le_one ha).2 (hcb.trans hba)
      have hq0 : 0 ≤ b / a := div_nonneg (hc0.trans hcb) ha.le
      have hs0 : 0 ≤ c / a := div_nonneg hc0 ha.le
      generalize b / a = qn at *
      generalize c / a = sn at *
      have hpr : toPrinc cfg.inner major inter minor = toPrinc cfg major inter minor := rfl
      have hla : laterTest cfg.inner = laterTest cfg := rfl
      rw [List.mapM_map, List.mapM_map, List.mapM_map, List.mapM_map, hpr, hla]
      rw [mapM_closed _ (0 : ℝ) cfg.pts, mapM_closed _ (0 : ℝ) cfg.inner.pts, mapM_closed _ false cfg.pts, mapM_closed _ false cfg.inner.pts]
      by_cases hz : qn = 0 ∨ sn = 0
      · have hnone : ∀ y, ellRadius2 qn sn y = none := by
          intro y
          unfold ellRadius2 cdiv
          rcases hz with h | h <;> simp [h]
        have n1 : ∀ l : List Pt, pr₀.1 ∈ l → ¬ ∀ p ∈ l, (((fun y => (ellRadius2 qn sn y).map Real.sqrt) ∘ toPrinc cfg major inter minor) p).isSome = true := by
          intro l hl h
          have := h pr₀.1 hl
          simp [hnone] at this
        rw [if_neg (n1 _ hp₀), if_neg (n1 _ (List.mem_of_mem_filter hp₀))]
        exact ⟨rfl, fun st' h => by cases h⟩
      · push Not at hz
        have hqp : 0 < qn := lt_of_le_of_ne hq0 (Ne.symm hz.1)
        have hsp : 0 < sn := lt_of_le_of_ne hs0 (Ne.symm hz.2)
        have hrad : ∀ p, ellRadius2 qn sn (toPrinc cfg major inter minor p) = some (ellipsoidal2 major inter minor qn sn (rel cfg p)) := by
          intro p
          unfold ellRadius2
          rw [cdiv_of_ne (pow_ne_zero 2 hz.1), cdiv_of_ne (pow_ne_zero 2 hz.2)]
          rfl
        have hfar : ∀ p, near cfg.center cfg.d p = false → laterTest cfg qn sn (toPrinc cfg major inter minor p) = some false := by
          intro p hp
          unfold near at hp
          have hp := of_decide_eq_false hp
          unfold laterTest
          rw [hrad]
          simp only [Option.bind_eq_bind, Option.bind_some]
          rw [if_neg]
          have := le_ellipsoidal2 hO hqp hq1 hsp hs1 cfg p
          linarith
        have i1 : ∀ l : List Pt, ∀ p ∈ l, (((fun y => (ellRadius2 qn sn y).map Real.sqrt) ∘ toPrinc cfg major inter minor) p).isSome = true := by
          intro l p _
          simp [hrad]
        rw [if_pos (i1 _), if_pos (i1 _)]
        simp only [Option.bind_some]
        have i2 : (∀ p ∈ cfg.inner.pts, ((laterTest cfg qn sn ∘ toPrinc cfg major inter minor) p).isSome = true) ↔
            ∀ p ∈ cfg.pts, ((laterTest cfg qn sn ∘ toPrinc cfg major inter minor) p).isSome = true := by
          constructor
          · intro h p hp
            by_cases hn : near cfg.center cfg.d p = true
            · exact h p (List.mem_filter.2 ⟨hp, hn⟩)
            · simp [hfar p (by simpa using hn)]
          · exact fun h p hp => h p (List.mem_of_mem_filter hp)
        by_cases b2 : ∀ p ∈ cfg.inner.pts, ((laterTest cfg qn sn ∘ toPrinc cfg major inter minor) p).isSome = true
        · rw [if_pos b2, if_pos (i2.1 b2)]
          simp only [Option.bind_some]
          have f1 : ∀ (pts : List Pt) (P : Pt → Bool) (rho : Pt → ℝ),
              Shapes.select pts (pts.map rho) (pts.map P) = (pts.filter P).map fun p => (p, rho p) := by
            intro pts P rho
            apply select_spec
            · rw [List.forall₂_map_right_iff]; exact List.forall₂_same.2 fun _ _ => rfl
            · rw [List.forall₂_map_right_iff]; exact List.forall₂_same.2 fun _ _ => rfl
          have hfil : cfg.inner.pts.filter (fun p => ((laterTest cfg qn sn ∘ toPrinc cfg major inter minor) p).getD false) =
              cfg.pts.filter fun p => ((laterTest cfg qn sn ∘ toPrinc cfg major inter minor) p).getD false := by
            unfold Config.inner
            rw [List.filter_filter]
            apply List.filter_congr
            intro p _
            by_cases hn : near cfg.center cfg.d p = true
            · simp [hn]
            · have hn : near cfg.center cfg.d p = false := by simpa using hn
              simp [hn, hfar p hn]
          rw [f1, f1, hfil]
          refine ⟨rfl, ?_⟩
          intro st' h
          obtain rfl := Option.some.inj h
          refine ⟨hqp, hsp, ?_⟩
          intro pr hpr
          obtain ⟨p, hp, rfl⟩ := List.mem_map.1 hpr
          rw [← hfil] at hp
          exact List.mem_of_mem_filter hp
        · rw [if_neg b2, if_neg fun h => b2 (i2.2 h)]
          exact ⟨rfl, fun st' h => by cases h⟩

theorem inner_loop (fuel : Nat) (st : PState) (hq : 0 < st.q) (hs : 0 < st.s) (hsel : ∀ pr ∈ st.sel, pr.1 ∈ cfg.inner.pts) :
    loop (pureStep cfg) fuel st = loop (pureStep cfg.inner) fuel st := by
  induction fuel generalizing st with
  | zero => rfl
  | succ n ih =>
    obtain ⟨h1, h2⟩ := inner_iterate hsol hm st hq hs hsel
    have hstep : pureStep cfg st = pureStep cfg.inner st := by
      unfold pureStep
      rw [h1]
      rfl
    have hgo : ∀ st', pureStep cfg st = .go st' → pureIterate cfg st = some st' := by
      intro st' h
      unfold pureStep at h
      split at h
      · split at h
        · cases h
        · split at h
          · cases h
          · split at h
            · cases h
            · next h' => cases h; exact h'
      · cases h
    unfold loop
    rw [← hstep]
    cases hc : pureStep cfg st with
    | stop r => rfl
    | go st' =>
      obtain ⟨g1, g2, g3⟩ := h2 st' (hgo st' hc)
      exact ih st' g1 g2 g3

/-- Only the particles within the radius matter. -/
theorem inner_run (fuel : Nat) (morph : Morph) : pureRun fuel cfg morph = pureRun fuel cfg.inner morph := by
  have hstart : pureStart cfg morph = pureStart cfg.inner morph ∧ ∀ pr ∈ (pureStart cfg morph).sel, pr.1 ∈ cfg.inner.pts := by
    have f1 : ∀ (pts : List Pt) (P : Pt → Bool) (rho : Pt → ℝ),
        Shapes.select pts (pts.map rho) (pts.map P) = (pts.filter P).map fun p => (p, rho p) := by
      intro pts P rho
      apply select_spec
      · rw [List.forall₂_map_right_iff]; exact List.forall₂_same.2 fun _ _ => rfl
      · rw [List.forall₂_map_right_iff]; exact List.forall₂_same.2 fun _ _ => rfl
    have hfil : cfg.inner.pts.filter (initialTest cfg) = cfg.pts.filter (initialTest cfg) := by
      unfold Config.inner
      rw [List.filter_filter]
      apply List.filter_congr
      intro p _
      unfold initialTest near
      cases cfg.deltaD with
      | none => simp
      | some δ =>
        simp only [← Bool.decide_and]
        rw [decide_eq_decide]
        exact ⟨fun h => h.1, fun h => ⟨h, h.1⟩⟩
    have e1 : initialTest cfg.inner = initialTest cfg := rfl
    have e2 : radius0 cfg.inner = radius0 cfg := rfl
    unfold pureStart
    simp only
    rw [e1, e2, f1, f1, hfil]
    refine ⟨rfl, ?_⟩
    intro pr hpr
    obtain ⟨p, hp, rfl⟩ := List.mem_map.1 hpr
    rw [← hfil] at hp
    exact List.mem_of_mem_filter hp
  unfold pureRun
  rw [← hstart.1]
  exact inner_loop hsol hm fuel _ one_pos one_pos hstart.2

end

/-- Two problems with the same particles within the radius have the same result. -/
theorem pureOne_inner (st : Settings) (hsol : GoodSolver st.solver) (pts pts' : List Pt) (hm : ∀ p ∈ pts, 0 ≤ p.m) (hm' : ∀ p ∈ pts', 0 ≤ p.m)
    (center srcCenter : Vec ℝ) (d : ℝ) (δ : Option ℝ) (morph : Morph)
    (h : pts'.filter (near center d) = pts.filter (near center d)) :
    pureOne (st.config pts' center srcCenter d δ) morph = pureOne (st.config pts center srcCenter d δ) morph := by
  have e : (st.config pts' center srcCenter d δ).inner = (st.config pts center srcCenter d δ).inner := by
    unfold Settings.config Config.inner
    simp only
    rw [h]
  unfold pureOne
  rw [inner_run (cfg := st.config pts' center srcCenter d δ) hsol hm', inner_run (cfg := st.config pts center srcCenter d δ) hsol hm, e]
  rfl

end Verif.Shapes
