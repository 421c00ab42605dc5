import Verif.Periodic.Lemmas

/-!
# Periodic-boundary and centre properties C22–C26, C75
-/

set_option linter.unusedSectionVars false

namespace Verif.Periodic

variable {K : Type} [Field K] [LinearOrder K] [IsStrictOrderedRing K]

/-- `x'` is a periodic image of `x`: it differs by a whole number of box lengths. -/
def IsImage (L x x' : K) : Prop := ∃ k : ℤ, x' = x + k * L

/-- All coordinates lie in the box `[0, L)`. -/
def InBox (L : K) (xyz : List (Vec K)) : Prop := ∀ p ∈ xyz, ∀ i, 0 ≤ p i ∧ p i < L

/-- The particles chosen for the reference point include an existing one. -/
def ChoiceOK (choose : List Nat) (xyz : List (Vec K)) : Prop := ∃ j ∈ choose, j < xyz.length

/-! ## C22 -/

/-- C22 (first half). Unwrapping changes every coordinate by `0`, `L` or `-L` only, whatever particles
are chosen for the reference point. -/
theorem C22_whole_boxes (choose : List Nat) (xyz : List (Vec K)) (L : K) (hL : 0 ≤ L) :
    (respectPBCNoRef choose xyz L).length = xyz.length ∧
    ∀ (j : Nat) (p p' : Vec K), xyz[j]? = some p → (respectPBCNoRef choose xyz L)[j]? = some p' →
      ∀ i, p' i = p i ∨ p' i = p i - L ∨ p' i = p i + L := by
  unfold respectPBCNoRef
  rcases hL.eq_or_lt with rfl | hL
  · refine ⟨by simp, ?_⟩
    intro j p p' hp hp' i
    simp only [ne_eq, not_true_eq_false, if_false] at hp'
    rw [hp] at hp'
    left; rw [Option.some.inj hp']
  · rw [if_pos hL.ne']
    refine ⟨by simp, ?_⟩
    intro j p p' hp hp' i
    simp only [List.getElem?_map, hp, Option.map_some, Option.some.injEq] at hp'
    subst hp'
    rcases unwrapAxis_cases L (reference choose xyz i) (p i) hL with ⟨-, e⟩ | ⟨-, e⟩ | ⟨-, -, e⟩ <;>
      simp only [e] <;> simp

/-- C22 (second half). For particles inside the box, the result lies within `L/2` of the reference
point (the average of the chosen particles) along every axis. -/
theorem C22_gathered (choose : List Nat) (xyz : List (Vec K)) (L : K) (hL : 0 < L)
    (hbox : InBox L xyz) (hc : ChoiceOK choose xyz) :
    ∀ p' ∈ respectPBCNoRef choose xyz L, ∀ i, |p' i - reference choose xyz i| ≤ L / 2 := by
  intro p' hp' i
  unfold respectPBCNoRef at hp'
  rw [if_pos hL.ne'] at hp'
  obtain ⟨p, hp, rfl⟩ := List.mem_map.1 hp'
  apply unwrapAxis_within _ _ _ hL
  have h1 := hbox p hp i
  have h2 := reference_mem choose xyz L hc hbox i
  rw [abs_le]; constructor <;> linarith [h1.1, h1.2, h2.1, h2.2]

/-- An object crossing the boundary along the first axis: the last particle is moved. -/
example : respectPBCNoRef [0, 1, 2] [![0, 5, 5], ![2, 5, 5], ![9, 5, (5 : ℚ)]] 10 =
    [![0, 5, 5], ![2, 5, 5], ![9 - 10, 5, 5]] := by
  have h : reference [0, 1, 2] [![0, 5, 5], ![2, 5, 5], ![9, 5, (5 : ℚ)]] = ![11/3, 5, 5] := by
    funext i; fin_cases i <;> norm_num [reference, List.filterMap_cons]
  unfold respectPBCNoRef
  rw [if_pos (by norm_num), h]
  simp only [List.map_cons, List.map_nil, List.cons.injEq, and_true]
  refine ⟨?_, ?_, ?_⟩ <;> funext i <;> fin_cases i <;> norm_num [unwrapAxis]

example : InBox 10 [![0, 5, 5], ![2, 5, 5], ![9, 5, (5 : ℚ)]] := by
  intro p hp i
  simp only [List.mem_cons, List.not_mem_nil, or_false] at hp
  rcases hp with rfl | rfl | rfl <;> fin_cases i <;> norm_num

/-! ## C75: compact objects become contiguous -/

/-- C75 (partial). Let `true_` be the actual positions of an object, of which `xyz` are periodic images
in the box.  If, up to whole boxes, the reference point is closer than `L/2` to all actual positions,
then unwrapping recovers the actual positions up to a common shift by whole boxes: all separations
are the actual ones.  Missing: the condition on the reference point does not follow from the object
being small (see `C75_compact_object_torn_refuted`). -/
theorem C75_contiguous_partial (choose : List Nat) (true_ xyz : List (Vec K)) (L : K) (hL : 0 < L)
    (hbox : InBox L xyz) (hc : ChoiceOK choose xyz)
    (himg : List.Forall₂ (fun y x => ∀ i, IsImage L (y i) (x i)) true_ xyz)
    (hnear : ∃ k : Fin 3 → ℤ, ∀ y ∈ true_, ∀ i,
      |y i + k i * L - reference choose xyz i| < L / 2) :
    ∃ k : Fin 3 → ℤ, respectPBCNoRef choose xyz L = true_.map fun y i => y i + k i * L := by
  obtain ⟨k, hk⟩ := hnear
  refine ⟨k, ?_⟩
  unfold respectPBCNoRef
  rw [if_pos hL.ne']
  simp only
  have href := reference_mem choose xyz L hc hbox
  generalize reference choose xyz = ref at *
  clear hc
  induction himg with
  | nil => rfl
  | @cons y x ys xs hyx _ ih =>
    simp only [List.map_cons, List.cons.injEq]
    refine ⟨?_, ih (fun p hp => hbox p (by simp [hp])) (fun y hy => hk y (by simp [hy]))⟩
    funext i
    obtain ⟨n, hn⟩ := hyx i
    have h1 := hbox x (by simp) i
    have h2 := href i
    have hw : |unwrapAxis L (ref i) (x i) - ref i| ≤ L / 2 :=
      unwrapAxis_within _ _ _ hL (by
        rw [abs_le]; constructor <;> linarith [h1.1, h1.2, h2.1, h2.2])
    have hkk := hk y (by simp) i
    obtain ⟨m, hm⟩ : ∃ m : ℤ, unwrapAxis L (ref i) (x i) = y i + m * L := by
      rcases unwrapAxis_cases L (ref i) (x i) hL with ⟨-, e⟩ | ⟨-, e⟩ | ⟨-, -, e⟩
      · exact ⟨n - 1, by rw [e, hn]; push_cast; ring⟩
      · exact ⟨n + 1, by rw [e, hn]; push_cast; ring⟩
      · exact ⟨n, by rw [e, hn]⟩
    rw [hm] at hw ⊢
    rw [abs_le] at hw
    rw [abs_lt] at hkk
    have hlt1 : ((m - k i : ℤ) : K) * L < 1 * L := by push_cast; linarith [hw.1, hw.2, hkk.1, hkk.2]
    have hlt2 : (-1 : K) * L < ((m - k i : ℤ) : K) * L := by
      push_cast; linarith [hw.1, hw.2, hkk.1, hkk.2]
    have a1 := lt_of_mul_lt_mul_right hlt1 hL.le
    have a2 := lt_of_mul_lt_mul_right hlt2 hL.le
    have b1 : m - k i < 1 := by exact_mod_cast a1
    have b2 : -1 < m - k i := by exact_mod_cast a2
    have : m = k i := by omega
    rw [this]

/-- Example for the hypotheses: an object at 9, 11, 12 in a box of length 10. -/
example : ∃ k : Fin 3 → ℤ, respectPBCNoRef [1, 2] [![9, 0, 0], ![1, 0, 0], ![2, 0, (0 : ℚ)]] 10 =
    [![9, 0, 0], ![11, 0, 0], ![12, 0, (0 : ℚ)]].map fun y i => y i + (k i : ℚ) * 10 := by
  have h : reference [1, 2] [![9, 0, 0], ![1, 0, 0], ![2, 0, (0 : ℚ)]] = ![3/2, 0, 0] := by
    funext i; fin_cases i <;> norm_num [reference, List.filterMap_cons]
  refine C75_contiguous_partial _ _ _ 10 (by norm_num) ?_ ⟨1, by simp, by simp⟩ ?_ ⟨![-1, 0, 0], ?_⟩
  · intro p hp i
    simp only [List.mem_cons, List.not_mem_nil, or_false] at hp
    rcases hp with rfl | rfl | rfl <;> fin_cases i <;> norm_num
  · refine .cons ?_ (.cons ?_ (.cons ?_ .nil))
    · intro i; exact ⟨0, by simp⟩
    · intro i; fin_cases i
      · exact ⟨-1, by norm_num⟩
      · exact ⟨0, by norm_num⟩
      · exact ⟨0, by norm_num⟩
    · intro i; fin_cases i
      · exact ⟨-1, by norm_num⟩
      · exact ⟨0, by norm_num⟩
      · exact ⟨0, by norm_num⟩
  · rw [h]
    intro y hy i
    simp only [List.mem_cons, List.not_mem_nil, or_false] at hy
    rcases hy with rfl | rfl | rfl <;> fin_cases i <;> norm_num [abs_lt]

/-- C75 is false in general: a two-particle object of extent 2 in a box of length 10, crossing the
boundary, is not gathered; its particles remain 8 apart (all particles are used as reference). -/
theorem C75_compact_object_torn_refuted :
    respectPBCNoRef [0, 1] [![9, 5, 5], ![1, 5, (5 : ℚ)]] 10 = [![9, 5, 5], ![1, 5, 5]] := by
  have h : reference [0, 1] [![9, 5, 5], ![1, 5, (5 : ℚ)]] = ![5, 5, 5] := by
    funext i; fin_cases i <;> norm_num [reference, List.filterMap_cons]
  unfold respectPBCNoRef
  rw [if_pos (by norm_num), h]
  simp only [List.map_cons, List.map_nil, List.cons.injEq, and_true]
  constructor <;> funext i <;> fin_cases i <;> norm_num [unwrapAxis]

/-! ## C23 -/

/-- C23. Recentring maps coordinates in `[-L, 2L)` into `[0, L)`, changing them by whole boxes; without
periodicity (`L = 0`) nothing changes. -/
theorem C23_recentre (L x : K) :
    (0 < L → -L ≤ x → x < 2 * L →
      0 ≤ recentreAxis L x ∧ recentreAxis L x < L ∧ IsImage L x (recentreAxis L x)) ∧
    recentreAxis 0 x = x := by
  refine ⟨fun hL h1 h2 => ?_, ?_⟩
  · unfold recentreAxis IsImage
    by_cases h : x ≥ L
    · have h' : ¬ x - L < 0 := by linarith
      simp only [h, if_true, h', if_false]
      exact ⟨by linarith, by linarith, -1, by push_cast; ring⟩
    · by_cases h0 : x < 0
      · simp only [h, if_false, h0, if_true]
        exact ⟨by linarith, by linarith, 1, by push_cast; ring⟩
      · simp only [h, if_false, h0]
        exact ⟨by linarith, by linarith, 0, by push_cast; ring⟩
  · simp [recentreAxis]

example : recentreAxis 10 (-3 : ℚ) = 7 ∧ recentreAxis 10 (10 : ℚ) = 0 := by
  constructor <;> norm_num [recentreAxis]

/-- C23 (consequence). The reported centre of mass of an object in the box lies in the box. -/
theorem C23_centre_in_box (choose choose' : List Nat) (ps : List (Particle K)) (L : K) (hL : 0 < L)
    (hbox : InBox L (ps.map fun p => p.pos)) (hc : ChoiceOK choose (ps.map fun p => p.pos))
    (hm : ∀ p ∈ ps, 0 ≤ p.mass) (hM : 0 < totalMass ps) (unwrapped : List (Particle K))
    (hu : unwrapped = List.zipWith (fun x p => ⟨x, p.mass⟩)
      (respectPBCNoRef choose (ps.map fun p => p.pos) L) ps) :
    ∀ c ∈ recentreObject [calcCoM choose' unwrapped] L, ∀ i, 0 ≤ c i ∧ c i < L := by
  have hgather := C22_gathered choose _ L hL hbox hc
  have href := reference_mem choose _ L hc hbox
  have hlen := (C22_whole_boxes choose (ps.map fun p => p.pos) L hL.le).1
  have hmass : unwrapped.map (fun p => p.mass) = ps.map fun p => p.mass := by
    rw [hu, List.map_zipWith]
    rw [List.length_map] at hlen
    generalize respectPBCNoRef choose (ps.map fun p => p.pos) L = xs at hlen
    clear hu hgather href hbox hc hm hM
    induction ps generalizing xs with
    | nil => cases xs <;> simp
    | cons p ps ih =>
      cases xs with
      | nil => simp at hlen
      | cons x xs => simp only [List.zipWith_cons_cons, List.map_cons]; rw [ih xs (by simpa using hlen)]
  have hM' : totalMass unwrapped = totalMass ps := by unfold totalMass; rw [hmass]
  intro c hc' i
  simp only [recentreObject, List.map_cons, List.map_nil, List.mem_singleton] at hc'
  subst hc'
  rw [calcCoM_eq _ _ (by rw [hM']; exact hM.ne')]
  have hb := weightedMean_bounds unwrapped (by
      intro p hp
      have : p.mass ∈ unwrapped.map (fun p => p.mass) := List.mem_map_of_mem hp
      rw [hmass] at this
      obtain ⟨q, hq, he⟩ := List.mem_map.1 this
      rw [← he]; exact hm q hq) (by rw [hM']; exact hM) i
    (reference choose (ps.map fun p => p.pos) i - L / 2)
    (reference choose (ps.map fun p => p.pos) i + L / 2) (by
      intro p hp
      rw [hu] at hp
      obtain ⟨j, hj⟩ := List.mem_iff_getElem?.1 hp
      rw [List.getElem?_zipWith] at hj
      split at hj
      · rename_i x q hx hq
        obtain rfl := Option.some.inj hj
        have := hgather x (List.mem_of_getElem? hx) i
        rw [abs_le] at this
        constructor <;> simp only <;> linarith [this.1, this.2]
      · cases hj)
  have h2 := href i
  exact ⟨(((C23_recentre L _).1 hL (by linarith [hb.1, h2.1]) (by linarith [hb.2, h2.2]))).1,
    (((C23_recentre L _).1 hL (by linarith [hb.1, h2.1]) (by linarith [hb.2, h2.2]))).2.1⟩

/-! ## C24 -/

/-- C24 (partial). If no particle is farther than `L/2` from the first particle along the first and the
second axis, the positions used for shapes and profiles are exactly the input positions.  Missing:
objects crossing a boundary (see the refutations). -/
theorem C24_images_partial (r : Vec K) (rest : List (Vec K)) (L : K) (hL : 0 < L)
    (h : ∀ p ∈ rest, |r 0 - p 0| ≤ L / 2 ∧ |r 1 - p 1| ≤ L / 2) :
    cyRespectPBCNoRef (r :: rest) L = r :: rest := by
  rw [cyRespect_eq L hL]
  simp only [List.map_cons, cyReflect_self L hL, List.cons.injEq, true_and]
  conv_rhs => rw [← List.map_id rest]
  apply List.map_congr_left
  intro p hp
  have h0 := not_lt.2 (h p hp).1
  have h1 := not_lt.2 (h p hp).2
  unfold cyReflect
  simp only [gt_iff_lt, h0, h1, if_false, id]

example : cyRespectPBCNoRef [![1, 2, 3], ![4, 1, (9 : ℚ)]] 10 = [![1, 2, 3], ![4, 1, 9]] := by
  apply C24_images_partial _ _ _ (by norm_num)
  intro p hp
  simp only [List.mem_singleton] at hp
  subst hp
  norm_num [abs_le]

/-- C24 is false: a particle across the boundary is mirrored to a position which is not a periodic
image (9 becomes 1, the image would be -1). -/
theorem C24_mirrored_refuted :
    cyRespectPBCNoRef [![1, 5, 5], ![9, 5, (5 : ℚ)]] 10 = [![1, 5, 5], ![1, 5, 5]] ∧
      ¬ IsImage 10 (9 : ℚ) 1 := by
  constructor
  · rw [cyRespect_eq 10 (by norm_num)]
    simp only [List.map_cons, List.map_nil, List.cons.injEq, and_true]
    constructor <;> funext i <;> fin_cases i <;> (norm_num [cyReflect, abs_of_neg, abs_of_pos]; try rfl)
  · rintro ⟨k, hk⟩
    have h1 : (k : ℚ) * 10 = -8 := by linarith
    have h2 : k * 10 = -8 := by exact_mod_cast h1
    omega

/-- C24 is false along the third axis too: an object crossing that boundary is not unwrapped, whereas
the centre is computed from unwrapped positions. -/
theorem C24_third_axis_refuted :
    cyRespectPBCNoRef [![5, 5, 0], ![5, 5, 2], ![5, 5, (9 : ℚ)]] 10 =
      [![5, 5, 0], ![5, 5, 2], ![5, 5, 9]] ∧
    respectPBCNoRef [0, 1, 2] [![5, 5, 0], ![5, 5, 2], ![5, 5, (9 : ℚ)]] 10 =
      [![5, 5, 0], ![5, 5, 2], ![5, 5, -1]] := by
  constructor
  · apply C24_images_partial _ _ _ (by norm_num)
    intro p hp
    simp only [List.mem_cons, List.not_mem_nil, or_false] at hp
    rcases hp with rfl | rfl <;> norm_num
  · have h : reference [0, 1, 2] [![5, 5, 0], ![5, 5, 2], ![5, 5, (9 : ℚ)]] = ![5, 5, 11/3] := by
      funext i; fin_cases i <;> norm_num [reference, List.filterMap_cons]
    unfold respectPBCNoRef
    rw [if_pos (by norm_num), h]
    simp only [List.map_cons, List.map_nil, List.cons.injEq, and_true]
    refine ⟨?_, ?_, ?_⟩ <;> funext i <;> fin_cases i <;> norm_num [unwrapAxis]

/-! ## C25 -/

/-- C25. Both centre-of-mass routines return the mass-weighted mean, whatever particles are chosen for
the internal reference point. -/
theorem C25_weighted_mean (choose : List Nat) (ps : List (Particle K)) (hM : totalMass ps ≠ 0) :
    calcCoM choose ps = weightedMean ps ∧ cyCalcCoM ps = weightedMean ps :=
  ⟨calcCoM_eq choose ps hM, cyCalcCoM_eq ps⟩

/-- C25. The centre of mass does not depend on the order of the particles, moves with them, does not
change when all masses are multiplied by the same factor, and lies in the bounding box. -/
theorem C25_centre_of_mass (choose : List Nat) (ps : List (Particle K)) (hM : totalMass ps ≠ 0) :
    (∀ choose' ps', ps'.Perm ps → calcCoM choose' ps' = calcCoM choose ps) ∧
    (∀ choose' t, calcCoM choose' (translate t ps) = calcCoM choose ps + t) ∧
    (∀ choose' c, c ≠ 0 →
      calcCoM choose' (ps.map fun p => ⟨p.pos, c * p.mass⟩) = calcCoM choose ps) ∧
    ((∀ p ∈ ps, 0 ≤ p.mass) → ∀ i a b, (∀ p ∈ ps, a ≤ p.pos i ∧ p.pos i ≤ b) →
      a ≤ calcCoM choose ps i ∧ calcCoM choose ps i ≤ b) := by
  refine ⟨?_, ?_, ?_, ?_⟩
  · intro choose' ps' hp
    have hM' : totalMass ps' = totalMass ps := (hp.map _).sum_eq
    rw [calcCoM_eq choose ps hM, calcCoM_eq choose' ps' (by rw [hM']; exact hM)]
    funext i
    unfold weightedMean
    rw [hM', (hp.map fun p : Particle K => p.mass * p.pos i).sum_eq]
  · intro choose' t
    have hM' : totalMass (translate t ps) = totalMass ps := by
      simp [totalMass, translate, Function.comp_def]
    rw [calcCoM_eq choose ps hM, calcCoM_eq choose' _ (by rw [hM']; exact hM)]
    funext i
    unfold weightedMean
    rw [hM']
    simp only [translate, List.map_map, Function.comp_def, Pi.add_apply, mul_add]
    rw [sum_map_add']
    have : (ps.map fun p => p.mass * t i).sum = t i * totalMass ps := by
      unfold totalMass
      rw [← sum_map_mul_left']
      congr 1
      apply List.map_congr_left
      intro p _; ring
    rw [this]
    field_simp
  · intro choose' c hc
    have hM' : totalMass (ps.map fun p => (⟨p.pos, c * p.mass⟩ : Particle K)) = c * totalMass ps := by
      simp only [totalMass, List.map_map, Function.comp_def]
      rw [sum_map_mul_left']
    rw [calcCoM_eq choose ps hM, calcCoM_eq choose' _ (by rw [hM']; exact mul_ne_zero hc hM)]
    funext i
    unfold weightedMean
    rw [hM']
    simp only [List.map_map, Function.comp_def, mul_assoc]
    rw [sum_map_mul_left']
    field_simp
  · intro hm i a b hb
    rw [calcCoM_eq choose ps hM]
    have : 0 ≤ totalMass ps := sum_map_nonneg' ps _ hm
    exact weightedMean_bounds ps hm (lt_of_le_of_ne this hM.symm) i a b hb

example : calcCoM [1] [⟨![0, 0, 0], 1⟩, ⟨![4, 8, (0 : ℚ)], 3⟩] = ![3, 6, 0] := by
  rw [(C25_weighted_mean _ _ (by norm_num [totalMass])).1]
  funext i; fin_cases i <;> norm_num [weightedMean, totalMass]

/-! ## C26 -/

/-- At most four particles share a position. -/
def NoFiveCoincide (ps : List (Particle ℝ)) : Prop :=
  ∀ sub : List (Particle ℝ), sub.Sublist ps → (∀ p ∈ sub, ∀ q ∈ sub, p.pos = q.pos) → sub.length < 5

/-- C26 (partial). If at most four particles share a position, mode finding terminates, for every start
radius.  Missing: five or more coinciding particles (`C26_mode_diverges_refuted`). -/
theorem C26_terminates_partial (ps : List (Particle ℝ)) (h5 : NoFiveCoincide ps) (rad : ℝ) :
    ∃ fuel v, calcMode fuel ps rad = some v := by
  induction hn : ps.length using Nat.strong_induction_on generalizing ps rad with
  | _ n ih =>
    have hsub : ∀ rad, NoFiveCoincide
        (ps.filter fun p => decide (dist p.pos (weightedMean ps) < rad)) :=
      fun rad sub hs hc => h5 sub (hs.trans List.filter_sublist) hc
    by_cases hall : ∀ p ∈ ps, p.pos = weightedMean ps
    · refine ⟨1, weightedMean ps, ?_⟩
      rw [calcMode_succ, if_pos]
      exact lt_of_le_of_lt (List.length_filter_le _ _)
        (h5 ps (List.Sublist.refl _) fun p hp q hq => (hall p hp).trans (hall q hq).symm)
    · push Not at hall
      obtain ⟨p, hp, hne⟩ := hall
      have hd := dist_pos hne
      have key : ∀ (k : Nat) (rad : ℝ), rad * 0.83 ^ k ≤ dist p.pos (weightedMean ps) →
          ∃ fuel v, calcMode fuel ps rad = some v := by
        intro k
        induction k with
        | zero =>
          intro rad hrad
          have hlt : (ps.filter fun p => decide (dist p.pos (weightedMean ps) < rad)).length <
              ps.length := by
            rw [List.length_filter_lt_length_iff_exists]
            refine ⟨p, hp, ?_⟩
            rw [decide_eq_true_eq, not_lt]
            simpa using hrad
          obtain ⟨fuel, v, hv⟩ := ih _ (hn ▸ hlt) _ (hsub rad) (rad * 0.83) rfl
          by_cases h : (ps.filter fun p => decide (dist p.pos (weightedMean ps) < rad)).length < 5
          · exact ⟨1, _, by rw [calcMode_succ, if_pos h]⟩
          · exact ⟨fuel + 1, v, by rw [calcMode_succ, if_neg h, hv]⟩
        | succ k ihk =>
          intro rad hrad
          by_cases h : (ps.filter fun p => decide (dist p.pos (weightedMean ps) < rad)).length < 5
          · exact ⟨1, _, by rw [calcMode_succ, if_pos h]⟩
          by_cases hlt : (ps.filter fun p => decide (dist p.pos (weightedMean ps) < rad)).length <
              ps.length
          · obtain ⟨fuel, v, hv⟩ := ih _ (hn ▸ hlt) _ (hsub rad) (rad * 0.83) rfl
            exact ⟨fuel + 1, v, by rw [calcMode_succ, if_neg h, hv]⟩
          · have heq : (ps.filter fun p => decide (dist p.pos (weightedMean ps) < rad)) = ps :=
              List.filter_sublist.eq_of_length
                (le_antisymm (List.length_filter_le _ _) (not_lt.1 hlt))
            obtain ⟨fuel, v, hv⟩ := ihk (rad * 0.83) (by
              rw [mul_assoc, ← pow_succ']; exact hrad)
            exact ⟨fuel + 1, v, by rw [calcMode_succ, if_neg h, heq, hv]⟩
      obtain ⟨k, hk⟩ : ∃ k : Nat, rad * (0.83 : ℝ) ^ k ≤ dist p.pos (weightedMean ps) := by
        by_cases hr : rad ≤ 0
        · exact ⟨0, by simpa using hr.trans hd.le⟩
        · push Not at hr
          obtain ⟨k, hk⟩ := exists_pow_lt_of_lt_one (div_pos hd hr)
            (show (0.83 : ℝ) < 1 by norm_num)
          refine ⟨k, ?_⟩
          rw [lt_div_iff₀ hr] at hk
          linarith [mul_comm rad ((0.83 : ℝ) ^ k)]
      exact key k rad hk

/-- C26. Whenever mode finding returns, the result lies in the bounding box of the particles. -/
theorem C26_in_bounding_box (fuel : Nat) (ps : List (Particle ℝ)) (hne : ps ≠ []) (rad : ℝ)
    (v : Vec ℝ) (hm : ∀ p ∈ ps, 0 < p.mass) (h : calcMode fuel ps rad = some v) (i : Fin 3) (a b : ℝ)
    (hb : ∀ p ∈ ps, a ≤ p.pos i ∧ p.pos i ≤ b) : a ≤ v i ∧ v i ≤ b := by
  obtain ⟨sub, hs, hn, rfl⟩ := calcMode_is_mean fuel ps rad v h
  have hsm : ∀ p ∈ sub, 0 < p.mass := fun p hp => hm p (hs.subset hp)
  apply weightedMean_bounds sub (fun p hp => (hsm p hp).le)
  · cases sub with
    | nil => exact absurd (hn rfl) hne
    | cons p sub =>
      unfold totalMass
      simp only [List.map_cons, List.sum_cons]
      have h1 := hsm p (by simp)
      have h2 := sum_map_nonneg' sub (fun p => p.mass) fun q hq => (hsm q (by simp [hq])).le
      linarith
  · exact fun p hp => hb p (hs.subset hp)

/-- Any four distinct-or-not particles satisfy the hypothesis; so do five of which two differ. -/
example : NoFiveCoincide [⟨![0, 0, 0], 1⟩, ⟨![0, 0, 0], 1⟩, ⟨![0, 0, 0], 1⟩, ⟨![0, 0, 0], 1⟩,
    ⟨![1, 0, 0], 1⟩] := by
  intro sub hs hc
  by_contra hlen
  have : sub = _ := hs.eq_of_length (le_antisymm hs.length_le (by simpa using hlen))
  subst this
  have := congrFun (hc ⟨![0, 0, 0], 1⟩ (by simp) ⟨![1, 0, 0], 1⟩ (by simp)) 0
  simp at this

/-- C26 is false in general: for five or more particles at the same place (and positive total mass and
start radius) the recursion never ends, whatever the recursion limit. -/
theorem C26_mode_diverges_refuted (ps : List (Particle ℝ)) (x : Vec ℝ) (hx : ∀ p ∈ ps, p.pos = x)
    (h5 : 5 ≤ ps.length) (hM : totalMass ps ≠ 0) (rad : ℝ) (hr : 0 < rad) (fuel : Nat) :
    calcMode fuel ps rad = none := by
  have hcom : weightedMean ps = x := by
    funext i
    unfold weightedMean
    rw [div_eq_iff hM]
    unfold totalMass
    rw [← sum_map_mul_left']
    congr 1
    apply List.map_congr_left
    intro p hp
    rw [hx p hp, mul_comm]
  induction fuel generalizing rad with
  | zero => rfl
  | succ n ih =>
    have hf : (ps.filter fun p => decide (dist p.pos (weightedMean ps) < rad)) = ps := by
      rw [List.filter_eq_self]
      intro p hp
      rw [hcom, hx p hp, dist_self]
      exact decide_eq_true hr
    rw [calcMode_succ, hf, if_neg (by omega)]
    exact ih _ (by positivity)

example : ∀ fuel, calcMode fuel (List.replicate 5 ⟨![1, 2, 3], 1⟩) 1000 = none :=
  C26_mode_diverges_refuted _ ![1, 2, 3] (by simp) (by simp) (by norm_num [totalMass]) 1000
    (by norm_num)

end Verif.Periodic
