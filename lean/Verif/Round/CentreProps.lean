import Verif.Round.Props

/-!
# Rounding: centres (C142, C144)
-/

namespace Verif.Round

variable (R : Rounding)

/-! ## C142: centre of mass -/

/-- Specification: one coordinate of the centre of mass. -/
noncomputable def centreOfMass (ps : List (ℝ × ℝ)) : ℝ := (ps.map fun p => p.2 * p.1).sum / (ps.map Prod.snd).sum

theorem abs_sum_le (l : List ℝ) (X : ℝ) (h : ∀ x ∈ l, |x| ≤ X) : (l.map abs).sum ≤ l.length * X := by
  induction l with
  | nil => simp
  | cons x l ih =>
    have := ih fun y hy => h y (List.mem_cons_of_mem _ hy)
    have := h x List.mem_cons_self
    simp only [List.map_cons, List.sum_cons, List.length_cons]
    push_cast
    linarith

theorem sum_between (l : List ℝ) (lo hi : ℝ) (h : ∀ x ∈ l, lo ≤ x ∧ x ≤ hi) : l.length * lo ≤ l.sum ∧ l.sum ≤ l.length * hi := by
  induction l with
  | nil => simp
  | cons x l ih =>
    obtain ⟨h1, h2⟩ := ih fun y hy => h y (List.mem_cons_of_mem _ hy)
    obtain ⟨h3, h4⟩ := h x List.mem_cons_self
    simp only [List.sum_cons, List.length_cons]
    push_cast
    constructor <;> linarith

/-- The average of the particles drawn is, up to rounding, between the smallest and the largest coordinate. -/
theorem average_near {chosen : List ℝ} (hne : chosen ≠ []) {s lo hi X : ℝ} (hs : Sums R chosen s)
    (hb : ∀ x ∈ chosen, lo ≤ x ∧ x ≤ hi) (hX : ∀ x ∈ chosen, |x| ≤ X) :
    lo - ((1 - R.u)⁻¹ ^ (chosen.length + 1) - 1) * X ≤ R.div s chosen.length ∧
    R.div s chosen.length ≤ hi + ((1 - R.u)⁻¹ ^ (chosen.length + 1) - 1) * X := by
  obtain ⟨l', hl', rfl⟩ := hs.rel
  have hpos : (0 : ℝ) < chosen.length := by exact_mod_cast List.length_pos_iff.2 hne
  obtain ⟨t, e, h1, h2⟩ := rel_rnd R (l'.sum / chosen.length)
  rw [pow_one] at h1 h2
  have h3 := err_sum (Rel.forall₂_map_rnd hl' t h1 h2)
  rw [List.sum_map_mul_right, List.map_id'] at h3
  have h4 : R.div l'.sum chosen.length = l'.sum * t / chosen.length := by
    unfold Rounding.div; rw [e]; ring
  obtain ⟨b1, b2⟩ := sum_between chosen lo hi hb
  have h5 := abs_sum_le chosen X hX
  have hg : 0 ≤ (1 - R.u)⁻¹ ^ (chosen.length + 1) - 1 := by
    have := one_le_pow₀ (one_le_inv R) (n := chosen.length + 1)
    linarith
  have h6 := abs_le.1 (h3.trans (mul_le_mul_of_nonneg_left h5 hg))
  rw [h4]
  constructor
  · rw [le_div_iff₀ hpos]; nlinarith [h6.1]
  · rw [div_le_iff₀ hpos]; nlinarith [h6.2]

/-- The sum of the weighted differences from any reference is the centre of mass minus the reference. -/
theorem weighted_sum (ps : List (ℝ × ℝ)) (r M : ℝ) (hM : M = (ps.map Prod.snd).sum) (hM0 : M ≠ 0) :
    (ps.map fun p => p.2 * (p.1 - r) / M).sum = centreOfMass ps - r := by
  have h : ∀ l : List (ℝ × ℝ), (l.map fun p => p.2 * (p.1 - r) / M).sum =
      (l.map fun p => p.2 * p.1).sum / M - r * (l.map Prod.snd).sum / M := by
    intro l
    induction l with
    | nil => simp
    | cons p l ih => simp only [List.map_cons, List.sum_cons, ih]; ring
  rw [h, centreOfMass, ← hM]
  field_simp

theorem weighted_abs_le (ps : List (ℝ × ℝ)) (r M D : ℝ) (hM : M = (ps.map Prod.snd).sum) (hM0 : 0 < M)
    (hm : ∀ p ∈ ps, 0 ≤ p.2) (hD : ∀ p ∈ ps, |p.1 - r| ≤ D) :
    ((ps.map fun p => p.2 * (p.1 - r) / M).map abs).sum ≤ D := by
  have h : ∀ l : List (ℝ × ℝ), (∀ p ∈ l, 0 ≤ p.2) → (∀ p ∈ l, |p.1 - r| ≤ D) →
      ((l.map fun p => p.2 * (p.1 - r) / M).map abs).sum ≤ D * (l.map Prod.snd).sum / M := by
    intro l
    induction l with
    | nil => intro _ _; simp
    | cons p l ih =>
      intro h1 h2
      have h3 := ih (fun q hq => h1 q (List.mem_cons_of_mem _ hq)) fun q hq => h2 q (List.mem_cons_of_mem _ hq)
      have h4 := h1 p List.mem_cons_self
      have h5 := h2 p List.mem_cons_self
      simp only [List.map_cons, List.sum_cons]
      have h6 : |p.2 * (p.1 - r) / M| ≤ D * p.2 / M := by
        rw [abs_div, abs_mul, abs_of_nonneg h4, abs_of_pos hM0, mul_comm D]
        gcongr
      calc _ ≤ D * p.2 / M + D * (l.map Prod.snd).sum / M := add_le_add h6 h3
        _ = _ := by ring
  refine (h ps hm hD).trans_eq ?_
  rw [← hM]
  field_simp

/-- C142. The computed centre of mass of `n` particles with coordinates between `lo` and `hi`, of size at most `X`: its error is one
rounding error of `X`, plus a multiple of the extent `hi - lo` of the object by about `8n` rounding errors, plus terms of second
order; for any particles drawn as reference, any masses, and any order of the summations. -/
theorem C142_centre (chosen : List ℝ) (hne : chosen ≠ []) (ps : List (ℝ × ℝ)) (lo hi X : ℝ)
    (hch : ∀ x ∈ chosen, ∃ p ∈ ps, p.1 = x) (hm : ∀ p ∈ ps, 0 < p.2) (hb : ∀ p ∈ ps, lo ≤ p.1 ∧ p.1 ≤ hi)
    (hX : ∀ p ∈ ps, |p.1| ≤ X) (hu : (2 * ps.length + 3) * R.u ≤ 1 / 2) (hu' : (chosen.length + 1) * R.u ≤ 1 / 2)
    (out : ℝ) (hout : CoM R chosen ps out) :
    |out - centreOfMass ps| ≤
      R.u * X + 4 * (2 * ps.length + 3) * R.u * (hi - lo + 2 * (chosen.length + 1) * R.u * X) := by
  obtain ⟨s, hs, total, ht, t, hsum⟩ := hout
  set r := R.div s chosen.length with hr
  obtain ⟨x₀, hx₀⟩ := List.exists_mem_of_ne_nil chosen hne
  obtain ⟨p₀, hp₀, -⟩ := hch x₀ hx₀
  have hX0 : 0 ≤ X := (abs_nonneg _).trans (hX p₀ hp₀)
  have hu0 := R.u_nonneg
  have hu1 := R.u_lt
  -- the reference
  obtain ⟨a1, a2⟩ := average_near R hne hs
    (fun x hx => by obtain ⟨p, hp, rfl⟩ := hch x hx; exact hb p hp) (fun x hx => by obtain ⟨p, hp, rfl⟩ := hch x hx; exact hX p hp)
  have hg := gamma_le R (chosen.length + 1) (by push_cast; exact hu')
  set g := (1 - R.u)⁻¹ ^ (chosen.length + 1) - 1 with hgdef
  have hgX : g * X ≤ 2 * (chosen.length + 1) * R.u * X := by
    refine mul_le_mul_of_nonneg_right (hg.trans_eq ?_) hX0
    push_cast; ring
  set D := hi - lo + 2 * (chosen.length + 1) * R.u * X with hDdef
  have hD : ∀ p ∈ ps, |p.1 - r| ≤ D := by
    intro p hp
    obtain ⟨b1, b2⟩ := hb p hp
    rw [abs_le]
    constructor <;> linarith
  have hD0 : 0 ≤ D := (abs_nonneg _).trans (hD p₀ hp₀)
  -- the total mass
  set M := (ps.map Prod.snd).sum with hM
  have hM0 : 0 < M := by
    have hnn : ∀ l : List (ℝ × ℝ), (∀ p ∈ l, 0 < p.2) → l ≠ [] → 0 < (l.map Prod.snd).sum := by
      intro l hl hne
      apply List.sum_pos
      · intro x hx; obtain ⟨p, hp, rfl⟩ := List.mem_map.1 hx; exact hl p hp
      · simpa using hne
    exact hnn ps hm (List.ne_nil_of_mem hp₀)
  obtain ⟨m', hm', rfl⟩ := ht.rel
  have hMrel : Rel R ps.length m'.sum M := by
    have := rel_sum_of_nonneg hm' (by intro x hx; obtain ⟨p, hp, rfl⟩ := List.mem_map.1 hx; exact (hm p hp).le)
    rwa [List.length_map] at this
  -- the terms
  have hterms : List.Forall₂ (Rel R (ps.length + 3))
      (ps.map fun p => R.div (R.mul p.2 (R.sub p.1 r)) m'.sum) (ps.map fun p => p.2 * (p.1 - r) / M) := by
    rw [List.forall₂_map_left_iff, List.forall₂_map_right_iff]
    refine List.forall₂_same.2 fun p _ => ?_
    have h1 : Rel R 2 (R.mul p.2 (R.sub p.1 r)) (p.2 * (p.1 - r)) := by
      have := rel_round ((Rel.refl R 0 p.2).mul (rel_rnd R (p.1 - r)))
      exact this
    exact (rel_round (h1.div hMrel)).mono (by omega)
  obtain ⟨t', ht', rfl⟩ := hsum.rel
  rw [List.length_map] at ht'
  have hall := forall₂_rel_trans ht' hterms
  have h1 := err_sum hall
  have h2 := weighted_abs_le ps r M D hM hM0 (fun p hp => (hm p hp).le) hD
  rw [weighted_sum ps r M hM hM0.ne'] at h1
  have hk : ps.length + (ps.length + 3) = 2 * ps.length + 3 := by ring
  rw [hk] at h1
  have hg2 := gamma_le R (2 * ps.length + 3) (by push_cast; exact hu)
  have hg20 : 0 ≤ (1 - R.u)⁻¹ ^ (2 * ps.length + 3) - 1 := by
    have := one_le_pow₀ (one_le_inv R) (n := 2 * ps.length + 3)
    linarith
  have h3 : |t'.sum - (centreOfMass ps - r)| ≤ 2 * (2 * ps.length + 3) * R.u * D := by
    refine (h1.trans (mul_le_mul_of_nonneg_left h2 hg20)).trans ?_
    refine mul_le_mul_of_nonneg_right (hg2.trans_eq ?_) hD0
    push_cast; ring
  set E := 2 * (2 * (ps.length : ℝ) + 3) * R.u * D with hE
  have hE0 : 0 ≤ E := (abs_nonneg _).trans h3
  -- the centre of mass itself is not larger than X
  have hC : |centreOfMass ps| ≤ X := by
    have h4 := weighted_abs_le ps 0 M X hM hM0 (fun p hp => (hm p hp).le) (by intro p hp; rw [sub_zero]; exact hX p hp)
    have h5 := weighted_sum ps 0 M hM hM0.ne'
    rw [sub_zero] at h5
    rw [← h5]
    refine le_trans ?_ h4
    have : ∀ l : List ℝ, |l.sum| ≤ (l.map abs).sum := by
      intro l
      induction l with
      | nil => simp
      | cons x l ih => simp only [List.sum_cons, List.map_cons]; exact (abs_add_le _ _).trans (by linarith)
    exact this _
  have h4 : |t'.sum + r - centreOfMass ps| ≤ E := by
    have : t'.sum + r - centreOfMass ps = t'.sum - (centreOfMass ps - r) := by ring
    rw [this]; exact h3
  have h5 := R.err (t'.sum + r)
  have h6 : |t'.sum + r| ≤ X + E := by
    have : t'.sum + r = centreOfMass ps + (t'.sum + r - centreOfMass ps) := by ring
    rw [this]
    exact (abs_add_le _ _).trans (add_le_add hC h4)
  have h7 : R.add t'.sum r - centreOfMass ps = (R.rnd (t'.sum + r) - (t'.sum + r)) + (t'.sum + r - centreOfMass ps) := by
    unfold Rounding.add; ring
  rw [h7]
  refine (abs_add_le _ _).trans ?_
  have h8 : R.u * |t'.sum + r| ≤ R.u * X + E := by
    calc R.u * |t'.sum + r| ≤ R.u * (X + E) := mul_le_mul_of_nonneg_left h6 hu0
      _ ≤ R.u * X + E := by nlinarith
  have : 4 * (2 * (ps.length : ℝ) + 3) * R.u * D = 2 * E := by rw [hE]; ring
  rw [this]
  linarith

/-- There is always a result: e.g. adding one after the other. -/
theorem sums_exists (l : List ℝ) : ∃ s, Sums R l s := by
  induction l with
  | nil => exact ⟨0, .nil⟩
  | cons x l ih =>
    obtain ⟨s, hs⟩ := ih
    rcases l with _ | ⟨y, l⟩
    · exact ⟨x, .single x⟩
    · exact ⟨_, .join [x] (y :: l) (by simp) (by simp) x s (.single x) hs⟩

theorem com_exists (chosen : List ℝ) (ps : List (ℝ × ℝ)) : ∃ out, CoM R chosen ps out := by
  obtain ⟨s, hs⟩ := sums_exists R chosen
  obtain ⟨t, ht⟩ := sums_exists R (ps.map Prod.snd)
  obtain ⟨v, hv⟩ := sums_exists R (ps.map fun p => R.div (R.mul p.2 (R.sub p.1 (R.div s chosen.length))) t)
  exact ⟨_, .mk s hs t ht v hv⟩

/-- Two particles at 1000 and 1001 with masses 1 and 3, in double precision: the centre is 1000.75 up to 10^-12. -/
example : ∃ out, CoM float64 [1000, 1001] [(1000, 1), (1001, 3)] out ∧ |out - 1000.75| ≤ 1 / 10 ^ 12 := by
  obtain ⟨out, h⟩ := com_exists float64 [1000, 1001] [(1000, 1), (1001, 3)]
  refine ⟨out, h, ?_⟩
  have hu : float64.u = (1 / 2) ^ 53 := rfl
  have := C142_centre float64 [1000, 1001] (by simp) [(1000, 1), (1001, 3)] 1000 1001 1001 (by simp) (by simp)
    (by simp; norm_num) (by simp; norm_num) (by rw [hu]; norm_num) (by rw [hu]; norm_num) out h
  have e : centreOfMass [(1000, 1), (1001, 3)] = 1000.75 := by unfold centreOfMass; norm_num
  rw [e, hu] at this
  refine this.trans ?_
  norm_num

/-! ## C144: recentring -/

/-- C144. A position up to one box outside is brought back to the box, borders included. -/
theorem C144_in_box_partial (L x : ℝ) (hL : 0 < L) (hst : R.Stored L) (h1 : -L ≤ x) (h2 : x ≤ 2 * L) :
    0 ≤ recentre R L x ∧ recentre R L x ≤ L := by
  have hadd : ∀ y, -L ≤ y → y < 0 → 0 ≤ R.add y L ∧ R.add y L ≤ L := by
    intro y hy hy0
    refine ⟨rnd_nonneg R (by linarith), ?_⟩
    have := R.mono (show y + L ≤ L by linarith)
    rwa [hst] at this
  unfold recentre
  dsimp only
  by_cases h : L ≤ x
  · rw [if_pos h]
    have h3 : 0 ≤ R.sub x L := rnd_nonneg R (by linarith)
    have h4 : R.sub x L ≤ L := by
      have := R.mono (show x - L ≤ L by linarith)
      rwa [hst] at this
    rw [if_neg (not_lt.2 h3)]
    exact ⟨h3, h4⟩
  · rw [if_neg h]
    by_cases h0 : x < 0
    · rw [if_pos h0]
      exact hadd x h1 h0
    · rw [if_neg h0]
      exact ⟨not_lt.1 h0, (not_le.1 h).le⟩

/-- C144. The upper border itself can come out: a coordinate just below 0 becomes the box length. -/
theorem C144_in_box_refuted : float64.Stored 1 ∧ float64.Stored (-(1 / 2 ^ 60)) ∧ recentre float64 1 (-(1 / 2 ^ 60)) = 1 := by
  have e1 : fl 53 (1 : ℝ) = 1 := by
    have := fl_eq (p := 53) (x := (1 : ℝ)) 0 (2 ^ 52) (by norm_num) (by norm_num) (by norm_num)
      (by rw [abs_lt]; constructor <;> norm_num)
    rw [this]; norm_num
  have e2 : fl 53 (1 / 2 ^ 60 : ℝ) = 1 / 2 ^ 60 := by
    have := fl_eq (p := 53) (x := (1 / 2 ^ 60 : ℝ)) (-60) (2 ^ 52) (by norm_num) (by norm_num) (by norm_num)
      (by rw [abs_lt]; constructor <;> norm_num)
    rw [this]; norm_num
  have e3 : fl 53 (-(1 / 2 ^ 60) + 1 : ℝ) = 1 := by
    have := fl_eq (p := 53) (x := (-(1 / 2 ^ 60) + 1 : ℝ)) (-1) (2 ^ 53) (by norm_num) (by norm_num) (by norm_num)
      (by rw [abs_lt]; constructor <;> norm_num)
    rw [this]; norm_num
  refine ⟨e1, ?_, ?_⟩
  · unfold Rounding.Stored
    rw [float64.odd]
    change -fl 53 (1 / 2 ^ 60 : ℝ) = _
    rw [e2]
  · unfold recentre
    dsimp only
    have h1 : ¬(1 : ℝ) ≤ -(1 / 2 ^ 60) := by norm_num
    have h2 : (-(1 / 2 ^ 60) : ℝ) < 0 := by norm_num
    simp only [if_neg h1, if_pos h2]
    exact e3

end Verif.Round
