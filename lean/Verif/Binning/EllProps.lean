import Verif.Binning.Props

/-!
# Ellipsoidal profiles (C27, C98)

`calcDensProfBruteForceEll` and `calcMenclsBruteForceEll`.
-/

namespace Verif.Binning

/-! ## Model -/

/-- Membership test of the ellipsoidal enclosed mass, helper_class.pyx:401. -/
noncomputable def inEllipsoid (ps : List (Particle ℝ)) (center : Vec ℝ) (f : Frame) (hi : Axes)
    (i : Nat) : Bool :=
  (ps[i]?).any fun p => decide (level f center hi p.pos < 1)

/-- `calcMenclsBruteForceEll`, helper_class.pyx:353-412, for the list of bins
`(frame at the bin center, outer ellipsoid)`; `none` = NaN. -/
noncomputable def menclEll (ps : List (Particle ℝ)) (center : Vec ℝ)
    (bins : List (Frame × Axes)) (shell : List Nat) : List (Option ℝ) × List Nat :=
  bins.foldl (fun st bin =>
    let s := scan (inEllipsoid ps center bin.1 bin.2) ps.length st.2
    (st.1 ++ [if s.pts ≠ 0 then some (accumulate ps s fun m => m) else none], s.shell)) ([], shell)

/-! ## Specification -/

/-- Length of the projection of `x - center` on the direction of `v`. -/
noncomputable def projection (v center x : Vec ℝ) : ℝ :=
  (v 0 * (x 0 - center 0) + v 1 * (x 1 - center 1) + v 2 * (x 2 - center 2)) /
    Real.sqrt (v 0 ^ 2 + v 1 ^ 2 + v 2 ^ 2)

/-- `x` lies inside the ellipsoid with the given directions and semi-axes. -/
def Inside (f : Frame) (e : Axes) (center x : Vec ℝ) : Prop :=
  (projection f.major center x / e.a) ^ 2 + (projection f.inter center x / e.b) ^ 2 +
    (projection f.minor center x / e.c) ^ 2 < 1

open Classical in
/-- The particles inside the outer and not inside the inner ellipsoid. -/
noncomputable def shellMembers (center : Vec ℝ) (ps : List (Particle ℝ)) (f : Frame) (lo hi : Axes) :
    List (Particle ℝ) :=
  ps.filter fun p => decide (¬ Inside f lo center p.pos ∧ Inside f hi center p.pos)

open Classical in
/-- The particles inside an ellipsoid. -/
noncomputable def members (center : Vec ℝ) (ps : List (Particle ℝ)) (f : Frame) (e : Axes) :
    List (Particle ℝ) :=
  ps.filter fun p => decide (Inside f e center p.pos)

/-- Volume of an ellipsoid. -/
noncomputable def ellVolume (e : Axes) : ℝ := 4 / 3 * Real.pi * (e.a * e.b * e.c)

/-! ## Lemmas -/

theorem component_eq (v center x : Vec ℝ) : component v center x = projection v center x := by
  unfold component projection
  simp only
  ring

theorem level_lt_iff (f : Frame) (e : Axes) (center x : Vec ℝ) :
    level f center e x < 1 ↔ Inside f e center x := by
  unfold level Inside
  simp only [component_eq]

theorem filter_qEll (center : Vec ℝ) (ps : List (Particle ℝ)) (bin : Frame × Axes × Axes) :
    ps.filter (qEll center bin) = shellMembers center ps bin.1 bin.2.1 bin.2.2 := by
  unfold shellMembers qEll
  apply List.filter_congr
  intro p _
  rw [decide_eq_decide, level_lt_iff, ge_iff_le, ← not_lt, level_lt_iff, and_comm]

theorem menclEll_eq (ps : List (Particle ℝ)) (center : Vec ℝ) (bins : List (Frame × Axes))
    (shell : List Nat) (hlen : ps.length ≤ shell.length) :
    (menclEll ps center bins shell).1 = bins.map fun bin =>
      if (members center ps bin.1 bin.2).length ≠ 0 then
        some (totalMass (members center ps bin.1 bin.2)) else none := by
  unfold menclEll
  have hm : ∀ bin : Frame × Axes, members center ps bin.1 bin.2 =
      ps.filter fun p => decide (level bin.1 center bin.2 p.pos < 1) := by
    intro bin
    unfold members
    apply List.filter_congr
    intro p _
    rw [decide_eq_decide, level_lt_iff]
  have := foldl_scratch bins (fun sh bin =>
    (if (scan (inEllipsoid ps center bin.1 bin.2) ps.length sh).pts ≠ 0 then
      some (accumulate ps (scan (inEllipsoid ps center bin.1 bin.2) ps.length sh) (fun m => m))
      else none,
     (scan (inEllipsoid ps center bin.1 bin.2) ps.length sh).shell))
    (fun bin => if (members center ps bin.1 bin.2).length ≠ 0 then
        some (totalMass (members center ps bin.1 bin.2)) else none)
    ps.length (fun sh bin hsh => by
      obtain ⟨h1, h2, h3⟩ := accumulate_scan ps (fun p => decide (level bin.1 center bin.2 p.pos < 1)) sh
        hsh (fun m => m) (inEllipsoid ps center bin.1 bin.2) rfl
      refine ⟨?_, by rw [h2]; exact hsh⟩
      simp only [h1, h3, hm]
      rfl) [] shell hlen
  rw [List.nil_append] at this
  exact this

theorem sum_filter_comm {β : Type} (bs : List β) (ps : List (Particle ℝ)) (q : β → Particle ℝ → Bool) :
    (bs.map fun b => ((ps.filter (q b)).map fun p => p.mass).sum).sum =
      (ps.map fun p => p.mass * ((bs.filter fun b => q b p).length : ℝ)).sum := by
  induction bs with
  | nil => simp
  | cons b bs ih =>
    simp only [List.map_cons, List.sum_cons, ih]
    clear ih
    induction ps with
    | nil => simp
    | cons p ps ih =>
      simp only [List.filter_cons, List.map_cons, List.sum_cons] at ih ⊢
      cases h : q b p
      · simp only [Bool.false_eq_true, if_false]; linarith
      · simp only [if_true, List.map_cons, List.sum_cons, List.length_cons]
        push_cast
        linarith

theorem sum_indicator (ps : List (Particle ℝ)) (q : Particle ℝ → Bool) :
    (ps.map fun p => p.mass * ((if q p then 1 else 0 : Nat) : ℝ)).sum =
      ((ps.filter q).map fun p => p.mass).sum := by
  induction ps with
  | nil => simp
  | cons p ps ih =>
    simp only [List.map_cons, List.sum_cons, ih, List.filter_cons]
    cases h : q p <;> simp

/-! ## Properties -/

/-- C27 (ellipsoidal). For any directions and semi-axes: the profile at a bin is the mass of the
particles inside the outer but not inside the inner ellipsoid of the bin, divided by the difference of the
volumes, and NaN if there is none. -/
theorem C27_ellipsoidal_profile (ps : List (Particle ℝ)) (center : Vec ℝ)
    (bins : List (Frame × Axes × Axes)) (shell : List Nat) (hlen : ps.length ≤ shell.length) :
    (densProfEll ps center bins shell).1 = bins.map fun bin =>
      if shellMembers center ps bin.1 bin.2.1 bin.2.2 = [] then none
      else some (totalMass (shellMembers center ps bin.1 bin.2.1 bin.2.2) /
        (ellVolume bin.2.2 - ellVolume bin.2.1)) := by
  rw [densProfEll_eq ps center bins shell hlen]
  apply List.map_congr_left
  intro bin _
  rw [filter_qEll]
  by_cases h : shellMembers center ps bin.1 bin.2.1 bin.2.2 = []
  · rw [if_pos h, if_neg (by simp [h])]
  · rw [if_neg h, if_pos (by simpa using h), sum_map_div']
    have : 4 / 3 * Real.pi * bin.2.2.a * bin.2.2.b * bin.2.2.c -
        4 / 3 * Real.pi * bin.2.1.a * bin.2.1.b * bin.2.1.c = ellVolume bin.2.2 - ellVolume bin.2.1 := by
      unfold ellVolume; ring
    rw [this]
    rfl

/-- C98 (partial). If the axis directions are the same in all bins, the semi-axes are
positive and do not shrink outwards, and the volumes grow: densities times volumes, summed over all bins
(an empty bin counting zero), are the mass of the particles between the first and the last ellipsoid.
Missing: axis directions changing with radius (`C98_mass_doubled_refuted`). -/
theorem C98_mass_partial (ps : List (Particle ℝ)) (center : Vec ℝ) (f : Frame) (axes : List Axes)
    (hpos : ∀ e ∈ axes, 0 < e.a ∧ 0 < e.b ∧ 0 < e.c)
    (hmono : axes.Pairwise fun e e' => e.a ≤ e'.a ∧ e.b ≤ e'.b ∧ e.c ≤ e'.c)
    (hvol : ∀ e ∈ axes.zip axes.tail, ellVolume e.1 < ellVolume e.2)
    (first last : Axes) (hf : axes.head? = some first) (hl : axes.getLast? = some last)
    (shell : List Nat) (hlen : ps.length ≤ shell.length) :
    (List.zipWith (fun (dens : Option ℝ) (e : Axes × Axes) =>
      dens.getD 0 * (ellVolume e.2 - ellVolume e.1))
      (densProfEll ps center (ellBins f axes) shell).1 (axes.zip axes.tail)).sum =
      totalMass (shellMembers center ps f first last) := by
  rw [C27_ellipsoidal_profile ps center _ shell hlen]
  have h1 : List.zipWith (fun (dens : Option ℝ) (e : Axes × Axes) =>
      dens.getD 0 * (ellVolume e.2 - ellVolume e.1))
      ((ellBins f axes).map fun bin =>
      if shellMembers center ps bin.1 bin.2.1 bin.2.2 = [] then none
      else some (totalMass (shellMembers center ps bin.1 bin.2.1 bin.2.2) /
        (ellVolume bin.2.2 - ellVolume bin.2.1))) (axes.zip axes.tail) =
      (ellBins f axes).map fun b => ((ps.filter (qEll center b)).map fun p => p.mass).sum := by
    unfold ellBins
    clear hf hl hmono hpos
    generalize axes.zip axes.tail = zs at *
    induction zs with
    | nil => rfl
    | cons z zs ih =>
      simp only [List.map_cons, List.zipWith_cons_cons]
      rw [ih fun e he => hvol e (by simp [he])]
      congr 1
      have hv := hvol z (by simp)
      rw [filter_qEll]
      simp only
      by_cases h : shellMembers center ps f z.1 z.2 = []
      · rw [if_pos h, h]; simp
      · rw [if_neg h, Option.getD_some, div_mul_cancel₀ _ (by linarith)]
        rfl
  rw [h1, sum_filter_comm]
  have h2 : (ps.map fun p => p.mass * (((ellBins f axes).filter fun b => qEll center b p).length : ℝ)) =
      ps.map fun p => p.mass * ((if qEll center (f, first, last) p then 1 else 0 : Nat) : ℝ) := by
    apply List.map_congr_left
    intro p _
    rw [C27_ellipsoidal_partial f center axes hpos hmono first last hf hl p]
    congr 2
    unfold qEll
    simp only [decide_eq_true_eq, ge_iff_le, and_comm]
  rw [h2, sum_indicator, filter_qEll]
  rfl

/-- C98 is false for bins whose directions change with radius: the profile of a single
particle of mass 1 sums up to mass 2 (directions and semi-axes as in `C27_counted_twice_refuted`). -/
theorem C98_mass_doubled_refuted :
    (densProfEll [⟨![4, 0, 0], 1⟩] 0 [(frameXYZ, ⟨3, 1, 1⟩, ⟨6, 2, 2⟩), (frameYXZ, ⟨6, 2, 2⟩, ⟨15, 5, 5⟩)]
      [0]).1 = [some (1 / (ellVolume ⟨6, 2, 2⟩ - ellVolume ⟨3, 1, 1⟩)),
        some (1 / (ellVolume ⟨15, 5, 5⟩ - ellVolume ⟨6, 2, 2⟩))] ∧
    1 / (ellVolume ⟨6, 2, 2⟩ - ellVolume ⟨3, 1, 1⟩) * (ellVolume ⟨6, 2, 2⟩ - ellVolume ⟨3, 1, 1⟩) +
      1 / (ellVolume ⟨15, 5, 5⟩ - ellVolume ⟨6, 2, 2⟩) *
        (ellVolume ⟨15, 5, 5⟩ - ellVolume ⟨6, 2, 2⟩) = 2 := by
  constructor
  · rw [C27_ellipsoidal_profile _ _ _ _ (by simp)]
    obtain ⟨h1, h2⟩ := C27_counted_twice_refuted
    have e1 : shellMembers 0 [⟨![4, 0, 0], 1⟩] frameXYZ ⟨3, 1, 1⟩ ⟨6, 2, 2⟩ = [⟨![4, 0, 0], 1⟩] := by
      rw [← filter_qEll 0 [⟨![4, 0, 0], 1⟩] (frameXYZ, ⟨3, 1, 1⟩, ⟨6, 2, 2⟩)]
      simp [h1]
    have e2 : shellMembers 0 [⟨![4, 0, 0], 1⟩] frameYXZ ⟨6, 2, 2⟩ ⟨15, 5, 5⟩ = [⟨![4, 0, 0], 1⟩] := by
      rw [← filter_qEll 0 [⟨![4, 0, 0], 1⟩] (frameYXZ, ⟨6, 2, 2⟩, ⟨15, 5, 5⟩)]
      simp [h2]
    simp only [List.map_cons, List.map_nil, e1, e2]
    simp [totalMass]
  · have hpi := Real.pi_pos
    have h1 : ellVolume ⟨6, 2, 2⟩ - ellVolume ⟨3, 1, 1⟩ ≠ 0 := by
      unfold ellVolume; simp only; nlinarith
    have h2 : ellVolume ⟨15, 5, 5⟩ - ellVolume ⟨6, 2, 2⟩ ≠ 0 := by
      unfold ellVolume; simp only; nlinarith
    rw [one_div_mul_cancel h1, one_div_mul_cancel h2]
    norm_num

/-- C98. The enclosed mass at each ellipsoid is the mass of the particles inside it, NaN if
there is none; if the directions are the same and the semi-axes do not shrink outwards, the values which
are not NaN do not decrease outwards, and once not NaN they stay so. -/
theorem C98_enclosed_mass (ps : List (Particle ℝ)) (center : Vec ℝ) (shell : List Nat)
    (hlen : ps.length ≤ shell.length) :
    (∀ bins : List (Frame × Axes), (menclEll ps center bins shell).1 = bins.map fun bin =>
      if members center ps bin.1 bin.2 = [] then none
      else some (totalMass (members center ps bin.1 bin.2))) ∧
    ((∀ p ∈ ps, 0 ≤ p.mass) → ∀ (f : Frame) (axes : List Axes),
      (∀ e ∈ axes, 0 < e.a ∧ 0 < e.b ∧ 0 < e.c) →
      (axes.Pairwise fun e e' => e.a ≤ e'.a ∧ e.b ≤ e'.b ∧ e.c ≤ e'.c) →
      (menclEll ps center (axes.map fun e => (f, e)) shell).1.Pairwise fun m m' =>
        ∀ x, m = some x → ∃ y, m' = some y ∧ x ≤ y) := by
  have key : ∀ bins : List (Frame × Axes), (menclEll ps center bins shell).1 = bins.map fun bin =>
      if members center ps bin.1 bin.2 = [] then none
      else some (totalMass (members center ps bin.1 bin.2)) := by
    intro bins
    rw [menclEll_eq ps center bins shell hlen]
    apply List.map_congr_left
    intro bin _
    by_cases h : members center ps bin.1 bin.2 = []
    · rw [if_pos h, if_neg (by simp [h])]
    · rw [if_neg h, if_pos (by simpa using h)]
  refine ⟨key, ?_⟩
  intro hm f axes hpos hmono
  rw [key, List.map_map, List.pairwise_map]
  apply List.Pairwise.imp_of_mem _ hmono
  intro e e' he he' hle x hx
  simp only [Function.comp] at hx ⊢
  obtain ⟨p1, p2, p3⟩ := hpos e he
  have hin : ∀ y : Vec ℝ, Inside f e center y → Inside f e' center y := by
    intro y hy
    have hq : ∀ (x a a' : ℝ), 0 < a → a ≤ a' → (x / a') ^ 2 ≤ (x / a) ^ 2 := by
      intro x a a' ha haa
      rw [div_pow, div_pow]
      apply div_le_div_of_nonneg_left (sq_nonneg _) (by positivity)
      exact pow_le_pow_left₀ ha.le haa 2
    unfold Inside at hy ⊢
    have := hq (projection f.major center y) e.a e'.a p1 hle.1
    have := hq (projection f.inter center y) e.b e'.b p2 hle.2.1
    have := hq (projection f.minor center y) e.c e'.c p3 hle.2.2
    linarith
  have hsub : (members center ps f e).Sublist (members center ps f e') := by
    unfold members
    apply List.monotone_filter_right
    intro p hp
    simp only [decide_eq_true_eq] at hp ⊢
    exact hin _ hp
  by_cases h : members center ps f e = []
  · rw [if_pos h] at hx; cases hx
  · rw [if_neg h] at hx
    obtain rfl := Option.some.inj hx
    have h' : members center ps f e' ≠ [] := by
      intro h0; rw [h0] at hsub; exact h (List.sublist_nil.1 hsub)
    refine ⟨_, if_neg h', ?_⟩
    unfold totalMass
    exact (hsub.map fun p => p.mass).sum_le_sum fun x hx => by
      obtain ⟨p, hp, rfl⟩ := List.mem_map.1 hx
      exact hm p (List.mem_of_mem_filter hp)

/-- C98. For non-negative masses and growing volumes densities are non-negative. -/
theorem C98_nonneg (ps : List (Particle ℝ)) (center : Vec ℝ) (hm : ∀ p ∈ ps, 0 ≤ p.mass)
    (bins : List (Frame × Axes × Axes)) (hvol : ∀ b ∈ bins, ellVolume b.2.1 < ellVolume b.2.2)
    (shell : List Nat) (hlen : ps.length ≤ shell.length) :
    ∀ d ∈ (densProfEll ps center bins shell).1, ∀ x, d = some x → 0 ≤ x := by
  intro d hd x hx
  rw [C27_ellipsoidal_profile ps center _ shell hlen] at hd
  obtain ⟨b, hb, rfl⟩ := List.mem_map.1 hd
  split at hx
  · cases hx
  · obtain rfl := Option.some.inj hx
    apply div_nonneg
    · exact sum_map_nonneg' _ _ fun p hp => hm p (List.mem_of_mem_filter hp)
    · linarith [hvol b hb]

example : (menclEll [⟨![4, 0, 0], 1⟩, ⟨![1, 0, 0], 2⟩] 0 [(frameXYZ, ⟨3, 1, 1⟩), (frameXYZ, ⟨6, 2, 2⟩)]
    [0, 0]).1.length = 2 := by
  rw [(C98_enclosed_mass _ 0 [0, 0] (by simp)).1]; rfl

example : ∀ e ∈ ([⟨3, 1, 1⟩, ⟨6, 2, 2⟩] : List Axes).zip [⟨6, 2, 2⟩], ellVolume e.1 < ellVolume e.2 := by
  intro e he
  simp only [List.zip_cons_cons, List.zip_nil_right, List.mem_singleton] at he
  subst he
  have := Real.pi_pos
  unfold ellVolume
  simp only
  nlinarith

end Verif.Binning
