import Verif.Round.CentreProps

/-!
# Rounding: density profiles (C143) and enclosed mass (C145)
-/

namespace Verif.Round

open Verif (Vec)

variable (R : Rounding)

/-! ## Edges and shells -/

theorem rnd_two_mul {b : ℝ} (hb : R.Stored b) : R.rnd (2 * b) = 2 * b := by rw [R.double, hb]

/-- The computed middle of two numbers is between them. -/
theorem mid_between {a b : ℝ} (ha : R.Stored a) (hb : R.Stored b) (h : a ≤ b) :
    a ≤ R.div (R.add a b) 2 ∧ R.div (R.add a b) 2 ≤ b := by
  have h1 : 2 * a ≤ R.add a b := by
    have := R.mono (show 2 * a ≤ a + b by linarith)
    rwa [rnd_two_mul R ha] at this
  have h2 : R.add a b ≤ 2 * b := by
    have := R.mono (show a + b ≤ 2 * b by linarith)
    rwa [rnd_two_mul R hb] at this
  constructor
  · have := R.mono (show a ≤ R.add a b / 2 by linarith)
    rwa [ha] at this
  · have := R.mono (show R.add a b / 2 ≤ b by linarith)
    rwa [hb] at this

theorem edges_chain (r : ℝ) (rs : List ℝ) (hs : (r :: rs).IsChain (· ≤ ·)) (hst : ∀ x ∈ r :: rs, R.Stored x) (e : ℝ)
    (he : e ≤ r) :
    (e :: (List.zipWith (fun a b => R.div (R.add a b) 2) (r :: rs) rs ++ (r :: rs).getLast?.toList)).IsChain (· ≤ ·) := by
  induction rs generalizing r e with
  | nil => simpa using he
  | cons r' rs ih =>
    have h1 : r ≤ r' := by simp only [List.isChain_cons_cons] at hs; exact hs.1
    obtain ⟨m1, m2⟩ := mid_between R (hst r List.mem_cons_self) (hst r' (by simp)) h1
    have h2 := ih r' (by simp only [List.isChain_cons_cons] at hs ⊢; exact hs.2) (fun x hx => hst x (List.mem_cons_of_mem _ hx))
      (R.div (R.add r r') 2) m2
    simp only [List.zipWith_cons_cons, List.cons_append, List.isChain_cons_cons]
    refine ⟨he.trans m1, ?_⟩
    simpa using h2

/-- C143. The computed edges are in order. -/
theorem C143_edges_sorted (radii : List ℝ) (hne : radii ≠ []) (hs : radii.IsChain (· ≤ ·)) (hst : ∀ x ∈ radii, R.Stored x)
    (hmin : ∀ x ∈ radii, 10⁻¹ ^ 8 ≤ x) : (edges R radii).IsChain (· ≤ ·) := by
  rcases radii with _ | ⟨r, rs⟩
  · exact absurd rfl hne
  · exact edges_chain R r rs hs hst _ (hmin r List.mem_cons_self)

open Classical in
/-- Among consecutive intervals a number is in exactly one, if it is in the whole range, and otherwise in none. -/
theorem count_intervals (f : ℝ → ℝ) (d : ℝ) (a : ℝ) (l : List ℝ) (hf : ((a :: l).map f).IsChain (· ≤ ·)) :
    ((a :: l).zip l).countP (fun e => decide (d < f e.2 ∧ d ≥ f e.1)) =
      if f a ≤ d ∧ d < f (l.getLastD a) then 1 else 0 := by
  induction l generalizing a with
  | nil =>
    rw [List.zip_nil_right, List.countP_nil]
    exact (if_neg (fun h => absurd h.2 (not_lt.2 h.1))).symm
  | cons b l ih =>
    have hab : f a ≤ f b := by simp only [List.map_cons, List.isChain_cons_cons] at hf; exact hf.1
    have hf' : ((b :: l).map f).IsChain (· ≤ ·) := by
      simp only [List.map_cons, List.isChain_cons_cons] at hf; exact hf.2
    have hb : f b ≤ f (l.getLastD b) := by
      clear ih hf hab
      induction l generalizing b with
      | nil => simp
      | cons c l ih2 =>
        simp only [List.map_cons, List.isChain_cons_cons] at hf'
        have := ih2 c (by simpa using hf'.2)
        rw [List.getLastD_cons]
        exact hf'.1.trans this
    rw [List.zip_cons_cons, List.countP_cons, ih b hf', List.getLastD_cons]
    by_cases h1 : d < f b
    · rw [if_neg (by intro h; linarith [h.1])]
      by_cases h2 : f a ≤ d
      · rw [if_pos (by simpa using ⟨h1, h2⟩), if_pos ⟨h2, h1.trans_le hb⟩]
      · rw [if_neg (by simpa using fun _ => h2), if_neg (fun h => h2 h.1)]
    · have h1' := not_lt.1 h1
      rw [if_neg (show ¬(decide (d < f b ∧ d ≥ f a) = true) by simp [h1])]
      by_cases h2 : d < f (l.getLastD b)
      · rw [if_pos ⟨h1', h2⟩, if_pos ⟨hab.trans h1', h2⟩]
      · rw [if_neg (fun h => h2 h.2), if_neg (fun h => h2 h.2)]

theorem bound_mono {r200 : ℝ} (hr : 0 ≤ r200) {e e' : ℝ} (he : 0 ≤ e) (h : e ≤ e') :
    R.pow (R.mul e r200) 2 ≤ R.pow (R.mul e' r200) 2 := by
  have h1 : R.mul e r200 ≤ R.mul e' r200 := R.mono (mul_le_mul_of_nonneg_right h hr)
  have h0 : 0 ≤ R.mul e r200 := rnd_nonneg R (mul_nonneg he hr)
  exact R.mono (pow_le_pow_left₀ h0 h1 2)

open Classical in
/-- C143. With rounded arithmetic, too, every particle between the first and the last edge is counted in exactly one shell, and
every other particle in none. -/
theorem C143_one_shell (radii : List ℝ) (hne : radii ≠ []) (hs : radii.IsChain (· ≤ ·)) (hst : ∀ x ∈ radii, R.Stored x)
    (hmin : ∀ x ∈ radii, 10⁻¹ ^ 8 ≤ x) (r200 : ℝ) (hr : 0 ≤ r200) (center x : Vec ℝ) :
    ((edges R radii).zip (edges R radii).tail).countP
        (fun e => decide (InShell R r200 (distSq R center x) e.1 e.2)) =
      if R.pow (R.mul (10⁻¹ ^ 8) r200) 2 ≤ distSq R center x ∧
        distSq R center x < R.pow (R.mul (radii.getLast hne) r200) 2 then 1 else 0 := by
  have hc := C143_edges_sorted R radii hne hs hst hmin
  have hpos : ∀ (a : ℝ) (l : List ℝ), 0 ≤ a → (a :: l).IsChain (· ≤ ·) →
      ((a :: l).map fun e => R.pow (R.mul e r200) 2).IsChain (· ≤ ·) := by
    intro a l
    induction l generalizing a with
    | nil => intro _ _; simp
    | cons b l ih =>
      intro ha hch
      simp only [List.isChain_cons_cons] at hch
      simp only [List.map_cons, List.isChain_cons_cons]
      exact ⟨bound_mono R hr ha hch.1, by simpa using ih b (ha.trans hch.1) hch.2⟩
  have hlast : (List.zipWith (fun a b => R.div (R.add a b) 2) radii radii.tail ++ radii.getLast?.toList).getLastD (10⁻¹ ^ 8) =
      radii.getLast hne := by
    rw [List.getLast?_eq_some_getLast hne]
    simp [List.getLastD_eq_getLast?]
  have := count_intervals (fun e => R.pow (R.mul e r200) 2) (distSq R center x) (10⁻¹ ^ 8)
    (List.zipWith (fun a b => R.div (R.add a b) 2) radii radii.tail ++ radii.getLast?.toList)
    (hpos _ _ (by positivity) hc)
  rw [hlast] at this
  refine Eq.trans ?_ this
  unfold edges
  rw [List.tail_cons]
  congr 1
  funext e
  exact decide_eq_decide.2 Iff.rfl

/-! ## Densities -/

open Classical in
/-- Specification: mass of the particles which pass the test of a shell. -/
noncomputable def shellMass (r200 e e' : ℝ) (center : Vec ℝ) (ps : List (Vec ℝ × ℝ)) : ℝ :=
  ((ps.filter fun p => InShell R r200 (distSq R center p.1) e e').map Prod.snd).sum

/-- C143. An entry of the profile times the volume used is the mass of the particles in the shell up to rounding; it is not
negative. -/
theorem C143_density_partial (pi r200 e e' : ℝ) (center : Vec ℝ) (ps : List (Vec ℝ × ℝ)) (hm : ∀ p ∈ ps, 0 ≤ p.2)
    (hV : 0 < volume R pi r200 e e') (hu : (ps.length + 1) * R.u ≤ 1 / 2) :
    0 ≤ density R pi r200 e e' center ps ∧
    |density R pi r200 e e' center ps * volume R pi r200 e e' - shellMass R r200 e e' center ps| ≤
      2 * (ps.length + 1) * R.u * shellMass R r200 e e' center ps := by
  classical
  set V := volume R pi r200 e e' with hVdef
  set qs := ps.filter fun p => InShell R r200 (distSq R center p.1) e e' with hqs
  have hq : ∀ p ∈ qs, 0 ≤ p.2 := fun p hp => hm p (List.mem_of_mem_filter hp)
  have hlen : qs.length ≤ ps.length := List.length_filter_le _ _
  obtain ⟨l', h1, e1⟩ := foldl_rel (R := R) (qs.map fun p => R.div p.2 V) 0
  have h2 : List.Forall₂ (Rel R 1) (0 :: qs.map fun p => R.div p.2 V) (0 :: qs.map fun p => p.2 / V) := by
    refine .cons (Rel.refl R 1 0) ?_
    rw [List.forall₂_map_left_iff, List.forall₂_map_right_iff]
    exact List.forall₂_same.2 fun p _ => rel_rnd R _
  have h3 := rel_sum_of_nonneg (forall₂_rel_trans h1 h2) (by
    intro x hx
    rcases List.mem_cons.1 hx with rfl | hx
    · exact le_rfl
    · obtain ⟨p, hp, rfl⟩ := List.mem_map.1 hx
      exact div_nonneg (hq p hp) hV.le)
  have h4 : density R pi r200 e e' center ps = l'.sum := by
    rw [← e1]
    unfold density
    rw [← hVdef]
  have h5 : (0 :: qs.map fun p => p.2 / V).sum = shellMass R r200 e e' center ps / V := by
    rw [List.sum_cons, zero_add]
    have : ∀ l : List (Vec ℝ × ℝ), (l.map fun p => p.2 / V).sum = (l.map Prod.snd).sum / V := by
      intro l
      induction l with
      | nil => simp
      | cons p l ih => simp only [List.map_cons, List.sum_cons, ih]; ring
    rw [this]
    unfold shellMass
    congr!
  have hM : 0 ≤ shellMass R r200 e e' center ps := by
    unfold shellMass
    apply List.sum_nonneg
    intro x hx
    obtain ⟨p, hp, rfl⟩ := List.mem_map.1 hx
    exact hm p (List.mem_of_mem_filter hp)
  rw [h5, ← h4, List.length_map] at h3
  have h6 := h3.mono (show qs.length + 1 ≤ ps.length + 1 by omega)
  refine ⟨h6.nonneg (div_nonneg hM hV.le), ?_⟩
  have h7 := scale_err R hV h6 (by push_cast; exact hu)
  rw [abs_of_nonneg hM] at h7
  exact h7.trans_eq (by push_cast; ring)

/-- C143. The volume used is that of the shell between the radii `e * r200` and `e' * r200`, up to 18 rounding errors of the volumes
of the two spheres. -/
theorem C143_volume_partial (pi r200 e e' : ℝ) (hpi : |pi - Real.pi| ≤ R.u * Real.pi) (he : 0 ≤ e) (he' : 0 ≤ e') (hr : 0 ≤ r200)
    (hu : R.u ≤ 1 / 18) :
    |volume R pi r200 e e' - 4 / 3 * Real.pi * ((e' * r200) ^ 3 - (e * r200) ^ 3)| ≤
      18 * R.u * (4 / 3 * Real.pi * ((e' * r200) ^ 3 + (e * r200) ^ 3)) := by
  have hpi0 := Real.pi_pos
  have cube : ∀ a : ℝ, Rel R 4 (R.pow (R.mul a r200) 3) ((a * r200) ^ 3) := fun a =>
    rel_round ((rel_rnd R (a * r200)).pow 3)
  have hpi' : Rel R 1 pi Real.pi := by
    refine ⟨pi / Real.pi, by field_simp, ?_, ?_⟩
    · rw [pow_one, le_div_iff₀ hpi0]
      have := (abs_le.1 hpi).1
      linarith
    · rw [pow_one, div_le_iff₀ hpi0]
      have := (abs_le.1 hpi).2
      have h3 : 1 + R.u ≤ (1 - R.u)⁻¹ := by
        have hb := base_pos R
        rw [le_inv_comm₀ (by linarith [R.u_nonneg]) hb, inv_eq_one_div, le_div_iff₀ (by linarith [R.u_nonneg])]
        nlinarith [R.u_nonneg, sq_nonneg R.u]
      nlinarith
  have hconst : Rel R 3 (R.mul (R.div 4 3) pi) (4 / 3 * Real.pi) := rel_round ((rel_rnd R (4 / 3)).mul hpi')
  obtain ⟨t, et, ht1, ht2⟩ := rel_rnd R (R.pow (R.mul e' r200) 3 - R.pow (R.mul e r200) 3)
  obtain ⟨v, ev, hv1, hv2⟩ := rel_rnd R (R.mul (R.div 4 3) pi * R.sub (R.pow (R.mul e' r200) 3) (R.pow (R.mul e r200) 3))
  have hvol : volume R pi r200 e e' =
      (R.pow (R.mul e' r200) 3 * t * (R.mul (R.div 4 3) pi) * v) + (-(R.pow (R.mul e r200) 3 * t * (R.mul (R.div 4 3) pi) * v)) := by
    unfold volume
    rw [show R.mul (R.mul (R.div 4 3) pi) (R.sub (R.pow (R.mul e' r200) 3) (R.pow (R.mul e r200) 3)) =
      R.rnd (R.mul (R.div 4 3) pi * R.sub (R.pow (R.mul e' r200) 3) (R.pow (R.mul e r200) 3)) from rfl, ev,
      show R.sub (R.pow (R.mul e' r200) 3) (R.pow (R.mul e r200) 3) =
      R.rnd (R.pow (R.mul e' r200) 3 - R.pow (R.mul e r200) 3) from rfl, et]
    ring
  have hterm : ∀ a : ℝ, Rel R 9 (R.pow (R.mul a r200) 3 * t * (R.mul (R.div 4 3) pi) * v)
      ((a * r200) ^ 3 * (4 / 3 * Real.pi)) := by
    intro a
    have h1 : Rel R 1 (R.pow (R.mul a r200) 3 * t) (R.pow (R.mul a r200) 3) := ⟨t, rfl, ht1, ht2⟩
    have h2 := (h1.trans (cube a)).mul hconst
    have h3 : Rel R 1 (R.pow (R.mul a r200) 3 * t * (R.mul (R.div 4 3) pi) * v)
      (R.pow (R.mul a r200) 3 * t * (R.mul (R.div 4 3) pi)) := ⟨v, rfl, hv1, hv2⟩
    exact (h3.trans h2).mono (by omega)
  have hneg : Rel R 9 (-(R.pow (R.mul e r200) 3 * t * (R.mul (R.div 4 3) pi) * v)) (-((e * r200) ^ 3 * (4 / 3 * Real.pi))) := by
    obtain ⟨w, ew, hw⟩ := hterm e
    exact ⟨w, by rw [ew]; ring, hw⟩
  have h := err_sum (.cons (hterm e') (.cons hneg .nil))
  simp only [List.sum_cons, List.sum_nil, add_zero, List.map_cons, List.map_nil, abs_neg] at h
  have hp1 : 0 ≤ (e' * r200) ^ 3 * (4 / 3 * Real.pi) := by positivity
  have hp2 : 0 ≤ (e * r200) ^ 3 * (4 / 3 * Real.pi) := by positivity
  rw [abs_of_nonneg hp1, abs_of_nonneg hp2, ← hvol] at h
  have hg := gamma_le R 9 (by push_cast; linarith)
  calc _ = |volume R pi r200 e e' - ((e' * r200) ^ 3 * (4 / 3 * Real.pi) + -((e * r200) ^ 3 * (4 / 3 * Real.pi)))| := by
        congr 1; ring
    _ ≤ _ := h
    _ ≤ 2 * (9 : ℕ) * R.u * ((e' * r200) ^ 3 * (4 / 3 * Real.pi) + (e * r200) ^ 3 * (4 / 3 * Real.pi)) :=
        mul_le_mul_of_nonneg_right hg (by positivity)
    _ = _ := by push_cast; ring

/-! ## C145: enclosed mass -/

/-- C145. The enclosed mass never decreases with the radius and is never more than the computed total mass. -/
theorem C145_enclosed (r200 : ℝ) (hr : 0 ≤ r200) (r r' : ℝ) (h0 : 0 ≤ r) (h : r ≤ r') (center : Vec ℝ) (ps : List (Vec ℝ × ℝ))
    (hm : ∀ p ∈ ps, 0 ≤ p.2) :
    enclosedMass R r200 r center ps ≤ enclosedMass R r200 r' center ps ∧
    enclosedMass R r200 r' center ps ≤ totalMass R (ps.map Prod.snd) := by
  have hnn : ∀ qs : List (Vec ℝ × ℝ), (∀ q ∈ qs, q ∈ ps) → ∀ x ∈ qs.map Prod.snd, 0 ≤ x := by
    intro qs hq x hx
    obtain ⟨q, hq', rfl⟩ := List.mem_map.1 hx
    exact hm q (hq q hq')
  unfold enclosedMass
  constructor
  · refine C141_sublist R _ _ (List.Sublist.map _ ?_) (hnn _ fun q hq => List.mem_of_mem_filter hq)
    apply List.monotone_filter_right
    intro p hp
    simp only [decide_eq_true_eq] at hp ⊢
    exact hp.trans_le (bound_mono R hr h0 h)
  · exact C141_sublist R _ _ (List.Sublist.map _ List.filter_sublist) (hnn _ fun q hq => hq)

/-- Two particles, double precision. -/
example : enclosedMass float64 2 1 ![0, 0, 0] [(![1, 0, 0], 5), (![3, 0, 0], 7)] ≤
    enclosedMass float64 2 2 ![0, 0, 0] [(![1, 0, 0], 5), (![3, 0, 0], 7)] :=
  (C145_enclosed float64 2 (by norm_num) 1 2 (by norm_num) (by norm_num) ![0, 0, 0] _ (by
    intro p hp
    rcases List.mem_pair.1 hp with rfl | rfl <;> norm_num)).1

theorem one_stored (p : ℕ) (hp : 1 ≤ p) : fl p 1 = 1 := by
  have := fl_eq (p := p) (x := (1 : ℝ)) 0 (2 ^ (p - 1)) (by norm_num) (by norm_num) (by norm_num) (by
    rw [zero_sub, zpow_neg, one_div, inv_inv]
    have : (2 : ℝ) ^ ((p : ℤ) - 1) = ((2 ^ (p - 1) : ℤ) : ℝ) := by
      push_cast
      rw [← zpow_natCast, Nat.cast_sub hp, Nat.cast_one]
    rw [this, sub_self, abs_zero]
    norm_num)
  rw [this]
  push_cast
  rw [zero_sub, zpow_neg, ← zpow_natCast, Nat.cast_sub hp, Nat.cast_one]
  field_simp

/-- C143. R200 is used in single precision: a particle at 1 + 2^-26, well inside the sphere of radius R200 = 1 + 2^-25 (all other
numbers in double precision), is not counted in the outermost shell. -/
theorem C143_single_precision_refuted : ∃ r200 d : ℝ, 0 < r200 ∧ 1 ≤ d ∧ 1 / 10 ^ 8 ≤ 1 * r200 - d ∧
    ¬InShell float64 (float32.rnd r200) (distSq float64 ![0, 0, 0] ![d, 0, 0]) (10⁻¹ ^ 8) 1 := by
  refine ⟨1 + 1 / 2 ^ 25, 1 + 1 / 2 ^ 26, by norm_num, by norm_num, by norm_num, ?_⟩
  have e1 : float32.rnd (1 + 1 / 2 ^ 25) = 1 := by
    have := fl_eq (p := 24) (x := (1 + 1 / 2 ^ 25 : ℝ)) 0 (2 ^ 23) (by norm_num) (by norm_num) (by norm_num)
      (by rw [abs_lt]; constructor <;> norm_num)
    change fl 24 (1 + 1 / 2 ^ 25 : ℝ) = 1
    rw [this]; norm_num
  have h1 : float64.rnd 1 = 1 := one_stored 53 (by norm_num)
  have hone : ∀ y, 1 ≤ y → 1 ≤ float64.rnd y := fun y hy => by
    have := float64.mono hy
    rwa [h1] at this
  have hz : float64.rnd 0 = 0 := rnd_zero float64
  rintro ⟨h, -⟩
  rw [e1] at h
  simp only [Rounding.pow, Rounding.mul, mul_one, h1, one_pow] at h
  refine absurd h (not_lt.2 ?_)
  simp only [distSq, Rounding.add, Rounding.pow, Rounding.sub, Matrix.cons_val_zero, Matrix.cons_val_one, Matrix.cons_val_two,
    Matrix.head_cons, Matrix.tail_cons, Matrix.cons_val, sub_self, hz, zero_sub, float64.odd, neg_sq]
  simp only [ne_eq, OfNat.ofNat_ne_zero, not_false_eq_true, zero_pow, hz, add_zero]
  refine hone _ (hone _ (hone _ ?_))
  exact one_le_pow₀ (hone _ (by norm_num))

open Classical in
/-- Three radii in double precision: a particle at the middle of the first two is in exactly one of the three shells. -/
example : ((edges float64 [1, 2, 4]).zip (edges float64 [1, 2, 4]).tail).countP
    (fun e => decide (InShell float64 1 (distSq float64 ![0, 0, 0] ![1, 1, 1]) e.1 e.2)) = 1 := by
  have h1 : float64.Stored 1 := one_stored 53 (by norm_num)
  have h2 : float64.Stored 2 := by have := float64.double 1; rw [h1] at this; unfold Rounding.Stored; norm_num at this; exact this
  have h4 : float64.Stored 4 := by have := float64.double 2; rw [h2] at this; unfold Rounding.Stored; norm_num at this; exact this
  have h3 : float64.rnd 3 = 3 := by
    have := fl_eq (p := 53) (x := (3 : ℝ)) 1 (3 * 2 ^ 51) (by norm_num) (by norm_num) (by norm_num)
      (by rw [abs_lt]; constructor <;> norm_num)
    change fl 53 3 = 3
    rw [this]; norm_num
  have h16 : float64.rnd 16 = 16 := by
    have := fl_eq (p := 53) (x := (16 : ℝ)) 4 (2 ^ 52) (by norm_num) (by norm_num) (by norm_num)
      (by rw [abs_lt]; constructor <;> norm_num)
    change fl 53 16 = 16
    rw [this]; norm_num
  have hd : distSq float64 ![0, 0, 0] ![1, 1, 1] = 3 := by
    have h1' : float64.rnd 1 = 1 := h1
    have h2' : float64.rnd 2 = 2 := h2
    simp only [distSq, Rounding.add, Rounding.pow, Rounding.sub, Matrix.cons_val_zero, Matrix.cons_val_one, Matrix.cons_val_two,
      Matrix.head_cons, Matrix.tail_cons, Matrix.cons_val, zero_sub, float64.odd, neg_sq, h1', one_pow]
    norm_num [h2', h3]
  have := C143_one_shell float64 [1, 2, 4] (by simp) (by simp; norm_num)
    (by intro x hx; simp at hx; rcases hx with rfl | rfl | rfl <;> assumption)
    (by intro x hx; simp at hx; rcases hx with rfl | rfl | rfl <;> norm_num) 1 zero_le_one ![0, 0, 0] ![1, 1, 1]
  rw [this, if_pos]
  rw [hd]
  constructor
  · have h5 : float64.mul (10⁻¹ ^ 8) 1 ≤ 1 := by
      have := float64.mono (show (10⁻¹ ^ 8 : ℝ) * 1 ≤ 1 by norm_num)
      rwa [h1] at this
    have h6 : 0 ≤ float64.mul (10⁻¹ ^ 8) 1 := rnd_nonneg float64 (by positivity)
    have h7 : float64.pow (float64.mul (10⁻¹ ^ 8) 1) 2 ≤ 1 := by
      have := float64.mono (pow_le_one₀ h6 h5 (n := 2))
      rwa [h1] at this
    linarith
  · have h4' : float64.rnd 4 = 4 := h4
    simp only [List.getLast_cons_cons, List.getLast_singleton, Rounding.mul, Rounding.pow, mul_one, h4']
    norm_num [h16]

end Verif.Round
