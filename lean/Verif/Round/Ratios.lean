import Verif.Round.Perturb
import Verif.Round.TotalMass

/-!
# Axis ratios with rounding (C169)

`calcShapeTensor` (helper_class.pyx:19-57) and the axis ratios computed from it (shape_profs_algos.pyx:97-103 and the three other
algorithms), every operation rounded.
-/

namespace Verif.Round

open Verif.Shapes
open Verif (Vec Particle)

/-! ## Model -/

/-- What is added to the entry (i,j) for a particle, helper_class.pyx:52 and 54; `r` is its `r_ell`, `mt` is `mass_tot`. -/
noncomputable def term (R : Rounding) (reduced : Bool) (mt : ℝ) (c : Vec ℝ) (p : Particle ℝ × ℝ) (i j : Fin 3) : ℝ :=
  R.div (R.mul (R.mul p.1.mass (R.sub (p.1.pos i) (c i))) (R.sub (p.1.pos j) (c j)))
    (if reduced then R.mul mt (R.pow p.2 2) else mt)

/-- The entry (i,j): the particles one after the other, helper_class.pyx:50-54. -/
noncomputable def entry (R : Rounding) (reduced : Bool) (mt : ℝ) (c : Vec ℝ) (ps : List (Particle ℝ × ℝ)) (i j : Fin 3) : ℝ :=
  (ps.map fun p => term R reduced mt c p i j).foldl R.add 0

/-- `calcShapeTensor`, helper_class.pyx:40-57, for the selected particles `ps` (position or velocity, mass, `r_ell`): the total mass
is added up in single precision `S`, the lower triangle is computed and mirrored. -/
noncomputable def roundedTensor (R S : Rounding) (reduced : Bool) (c : Vec ℝ) (ps : List (Particle ℝ × ℝ)) : Tensor :=
  let mt := totalSingle R S (ps.map fun p => p.1.mass)
  let e := entry R reduced mt c ps
  ![![e 0 0, e 1 0, e 2 0], ![e 1 0, e 1 1, e 2 1], ![e 2 0, e 2 1, e 2 2]]

/-- `sqrt(eigval[k]/eigval[2])`, shape_profs_algos.pyx:102-103: `none` if this is not a number (division by zero raises, the root of a
negative number is NaN). -/
noncomputable def rootRatio (R : Rounding) (a b : ℝ) : Option ℝ :=
  if b = 0 then none else if R.div a b < 0 then none else some (R.rnd √(R.div a b))

/-! ## Specification -/

/-- The exact second moments about `c`, without a common factor; for the reduced tensor particles are divided by `r ^ 2`. -/
noncomputable def moments (reduced : Bool) (c : Vec ℝ) (ps : List (Particle ℝ × ℝ)) (i j : Fin 3) : ℝ :=
  (ps.map fun p => p.1.mass / (if reduced then p.2 ^ 2 else 1) * (p.1.pos i - c i) * (p.1.pos j - c j)).sum

/-- What numerical linear algebra guarantees: the result is exact for a tensor which differs from the given one by the fraction `β` of
its norm. -/
def BackwardStable (β : ℝ) (sol : Solver) : Prop :=
  ∀ t : Tensor, (∀ i j, t i j = t j i) → ∃ t' : Tensor, IsEigen t' (sol t) ∧
    ∀ N, (∀ v, |form t v| ≤ N * dot v v) → ∀ v, |form t' v - form t v| ≤ β * N * dot v v

/-! ## Proofs -/

theorem GoodSolver.stable {sol : Solver} (h : GoodSolver sol) : BackwardStable 0 sol := fun t ht =>
  ⟨t, h t ht, fun N _ v => by simp⟩

/-- Weight of a particle. -/
noncomputable def weight (reduced : Bool) (mt : ℝ) (p : Particle ℝ × ℝ) : ℝ := p.1.mass / (if reduced then p.2 ^ 2 else 1) / mt

/-- Position of a particle relative to the centre. -/
def offset (c : Vec ℝ) (p : Particle ℝ × ℝ) : Vec ℝ := fun i => p.1.pos i - c i

theorem term_rel (R : Rounding) (reduced : Bool) (mt : ℝ) (c : Vec ℝ) (p : Particle ℝ × ℝ) (i j : Fin 3) :
    Rel R 7 (term R reduced mt c p i j) (weight reduced mt p * offset c p i * offset c p j) := by
  have h1 : Rel R 2 (R.mul p.1.mass (R.sub (p.1.pos i) (c i))) (p.1.mass * offset c p i) := by
    have := rel_round ((Rel.refl R 0 p.1.mass).mul (rel_rnd R (p.1.pos i - c i)))
    exact this.mono (by omega)
  have h2 : Rel R 4 (R.mul (R.mul p.1.mass (R.sub (p.1.pos i) (c i))) (R.sub (p.1.pos j) (c j)))
      (p.1.mass * offset c p i * offset c p j) := by
    have := rel_round (h1.mul (rel_rnd R (p.1.pos j - c j)))
    exact this.mono (by omega)
  have h3 : Rel R 2 (if reduced then R.mul mt (R.pow p.2 2) else mt) (mt * if reduced then p.2 ^ 2 else 1) := by
    cases reduced with
    | true =>
      rw [if_pos rfl, if_pos rfl]
      exact (rel_round ((Rel.refl R 0 mt).mul (rel_rnd R (p.2 ^ 2)))).mono (by omega)
    | false =>
      rw [if_neg (by decide), if_neg (by decide), mul_one]
      exact Rel.refl R 2 mt
  have h4 := rel_round (h2.div h3)
  have e : p.1.mass * offset c p i * offset c p j / (mt * if reduced then p.2 ^ 2 else 1) =
      weight reduced mt p * offset c p i * offset c p j := by
    unfold weight
    rw [mul_comm mt, ← div_div]
    generalize (if reduced then p.2 ^ 2 else (1 : ℝ)) = w
    ring
  rw [← e]
  exact h4

theorem entry_near (R : Rounding) (reduced : Bool) (mt : ℝ) (c : Vec ℝ) (ps : List (Particle ℝ × ℝ)) (i j : Fin 3)
    (hu : (ps.length + 7 : ℕ) * R.u ≤ 1 / 2) :
    |entry R reduced mt c ps i j - (ps.map fun p => weight reduced mt p * offset c p i * offset c p j).sum| ≤
      2 * (ps.length + 7 : ℕ) * R.u * (ps.map fun p => |weight reduced mt p * offset c p i * offset c p j|).sum := by
  obtain ⟨l', hl', e⟩ := foldl_rel (R := R) (ps.map fun p => term R reduced mt c p i j) 0
  unfold entry
  rw [e]
  rw [List.length_map] at hl'
  have h2 : List.Forall₂ (Rel R 7) (0 :: ps.map fun p => term R reduced mt c p i j)
      (0 :: ps.map fun p => weight reduced mt p * offset c p i * offset c p j) := by
    refine .cons (Rel.refl R _ 0) ?_
    rw [List.forall₂_map_left_iff, List.forall₂_map_right_iff]
    exact List.forall₂_same.2 fun p _ => term_rel R reduced mt c p i j
  have h3 := err_sum (forall₂_rel_trans hl' h2)
  rw [List.sum_cons, zero_add, List.map_cons, List.sum_cons, abs_zero, zero_add, List.map_map] at h3
  refine h3.trans (mul_le_mul_of_nonneg_right (gamma_le R _ hu) (List.sum_nonneg fun x hx => ?_))
  obtain ⟨p, -, rfl⟩ := List.mem_map.1 hx
  exact abs_nonneg _

theorem weight_nonneg {reduced : Bool} {mt : ℝ} (hmt : 0 < mt) {p : Particle ℝ × ℝ} (hm : 0 < p.1.mass) : 0 ≤ weight reduced mt p := by
  unfold weight
  have : (0 : ℝ) ≤ if reduced then p.2 ^ 2 else 1 := by split <;> positivity
  positivity

theorem cauchy (k a0 a1 a2 y0 y1 y2 : ℝ) (hk : 0 ≤ k) :
    |a0| ^ 2 * |k * y0 * y0| + |a1| ^ 2 * |k * y1 * y1| + |a2| ^ 2 * |k * y2 * y2| + 2 * (|a1| * |a0|) * |k * y1 * y0| +
      2 * (|a2| * |a0|) * |k * y2 * y0| + 2 * (|a2| * |a1|) * |k * y2 * y1| ≤
    k * (y0 * y0 + y1 * y1 + y2 * y2) * (a0 * a0 + a1 * a1 + a2 * a2) := by
  simp only [abs_mul, abs_of_nonneg hk]
  have e : ∀ x : ℝ, x * x = |x| * |x| := fun x => (abs_mul_abs_self x).symm
  rw [e y0, e y1, e y2, e a0, e a1, e a2]
  generalize |y0| = Y0, |y1| = Y1, |y2| = Y2, |a0| = A0, |a1| = A1, |a2| = A2
  have := mul_nonneg hk (sq_nonneg (A0 * Y1 - A1 * Y0))
  have := mul_nonneg hk (sq_nonneg (A0 * Y2 - A2 * Y0))
  have := mul_nonneg hk (sq_nonneg (A1 * Y2 - A2 * Y1))
  nlinarith

/-- The exact tensor with the total mass used. -/
noncomputable def exactTensor (reduced : Bool) (mt : ℝ) (c : Vec ℝ) (ps : List (Particle ℝ × ℝ)) : Tensor :=
  fun i j => (ps.map fun p => weight reduced mt p * offset c p i * offset c p j).sum

theorem exact_symm (reduced : Bool) (mt : ℝ) (c : Vec ℝ) (ps : List (Particle ℝ × ℝ)) (i j : Fin 3) :
    exactTensor reduced mt c ps i j = exactTensor reduced mt c ps j i := by
  unfold exactTensor
  congr 1
  exact List.map_congr_left fun p _ => by ring

theorem exact_nonneg (reduced : Bool) (mt : ℝ) (hmt : 0 < mt) (c : Vec ℝ) (ps : List (Particle ℝ × ℝ)) (hm : ∀ p ∈ ps, 0 < p.1.mass)
    (v : Vec ℝ) : 0 ≤ form (exactTensor reduced mt c ps) v := by
  unfold exactTensor
  induction ps with
  | nil => simp [form, dot]
  | cons p ps ih =>
    have := ih fun q hq => hm q (List.mem_cons_of_mem _ hq)
    have hk := weight_nonneg (reduced := reduced) hmt (hm p List.mem_cons_self)
    have h2 := mul_nonneg hk (sq_nonneg (dot v (offset c p)))
    simp only [form, dot, List.map_cons, List.sum_cons] at this h2 ⊢
    nlinarith

theorem exact_bound (reduced : Bool) (mt : ℝ) (hmt : 0 < mt) (c : Vec ℝ) (ps : List (Particle ℝ × ℝ)) (hm : ∀ p ∈ ps, 0 < p.1.mass)
    (v : Vec ℝ) :
    let B := fun i j => (ps.map fun p => |weight reduced mt p * offset c p i * offset c p j|).sum
    let t := exactTensor reduced mt c ps
    |v 0| ^ 2 * B 0 0 + |v 1| ^ 2 * B 1 1 + |v 2| ^ 2 * B 2 2 + 2 * (|v 1| * |v 0|) * B 1 0 + 2 * (|v 2| * |v 0|) * B 2 0 +
      2 * (|v 2| * |v 1|) * B 2 1 ≤ (t 0 0 + t 1 1 + t 2 2) * dot v v := by
  dsimp only
  unfold exactTensor dot
  induction ps with
  | nil => simp
  | cons p ps ih =>
    have := ih fun q hq => hm q (List.mem_cons_of_mem _ hq)
    have h2 := cauchy (weight reduced mt p) (v 0) (v 1) (v 2) (offset c p 0) (offset c p 1) (offset c p 2)
      (weight_nonneg hmt (hm p List.mem_cons_self))
    simp only [List.map_cons, List.sum_cons]
    linarith

theorem rounded_near (R : Rounding) (reduced : Bool) (mt : ℝ) (hmt : 0 < mt) (c : Vec ℝ) (ps : List (Particle ℝ × ℝ))
    (hm : ∀ p ∈ ps, 0 < p.1.mass) (hu : (ps.length + 7 : ℕ) * R.u ≤ 1 / 2) (v : Vec ℝ) :
    let e := entry R reduced mt c ps
    let t := exactTensor reduced mt c ps
    |form ![![e 0 0, e 1 0, e 2 0], ![e 1 0, e 1 1, e 2 1], ![e 2 0, e 2 1, e 2 2]] v - form t v| ≤
      2 * (ps.length + 7 : ℕ) * R.u * (t 0 0 + t 1 1 + t 2 2) * dot v v := by
  dsimp only
  obtain ⟨B, hB⟩ : ∃ B : Fin 3 → Fin 3 → ℝ, ∀ i j, (ps.map fun p => |weight reduced mt p * offset c p i * offset c p j|).sum = B i j :=
    ⟨_, fun _ _ => rfl⟩
  have hb := exact_bound reduced mt hmt c ps hm v
  have hn := fun i j => entry_near R reduced mt c ps i j hu
  simp only [hB] at hb hn
  have hs := exact_symm reduced mt c ps
  have hg : 0 ≤ 2 * ((ps.length + 7 : ℕ) : ℝ) * R.u := mul_nonneg (by positivity) R.u_nonneg
  have e : form ![![entry R reduced mt c ps 0 0, entry R reduced mt c ps 1 0, entry R reduced mt c ps 2 0],
      ![entry R reduced mt c ps 1 0, entry R reduced mt c ps 1 1, entry R reduced mt c ps 2 1],
      ![entry R reduced mt c ps 2 0, entry R reduced mt c ps 2 1, entry R reduced mt c ps 2 2]] v - form (exactTensor reduced mt c ps) v =
      v 0 ^ 2 * (entry R reduced mt c ps 0 0 - exactTensor reduced mt c ps 0 0) +
      v 1 ^ 2 * (entry R reduced mt c ps 1 1 - exactTensor reduced mt c ps 1 1) +
      v 2 ^ 2 * (entry R reduced mt c ps 2 2 - exactTensor reduced mt c ps 2 2) +
      2 * (v 1 * v 0) * (entry R reduced mt c ps 1 0 - exactTensor reduced mt c ps 1 0) +
      2 * (v 2 * v 0) * (entry R reduced mt c ps 2 0 - exactTensor reduced mt c ps 2 0) +
      2 * (v 2 * v 1) * (entry R reduced mt c ps 2 1 - exactTensor reduced mt c ps 2 1) := by
    simp only [form, dot, Matrix.cons_val_zero, Matrix.cons_val_one, Matrix.cons_val]
    rw [hs 0 1, hs 0 2, hs 1 2]
    ring
  rw [e]
  have step : ∀ (a : ℝ) (i j : Fin 3), |a * (entry R reduced mt c ps i j - exactTensor reduced mt c ps i j)| ≤
      |a| * (2 * (ps.length + 7 : ℕ) * R.u * B i j) := by
    intro a i j
    rw [abs_mul]
    exact mul_le_mul_of_nonneg_left (hn i j) (abs_nonneg a)
  have s0 := step (v 0 ^ 2) 0 0
  have s1 := step (v 1 ^ 2) 1 1
  have s2 := step (v 2 ^ 2) 2 2
  have s3 := step (2 * (v 1 * v 0)) 1 0
  have s4 := step (2 * (v 2 * v 0)) 2 0
  have s5 := step (2 * (v 2 * v 1)) 2 1
  simp only [abs_mul, abs_pow, abs_two] at s0 s1 s2 s3 s4 s5
  have hb' := mul_le_mul_of_nonneg_left hb hg
  have tri : ∀ a b c d e f : ℝ, |a + b + c + d + e + f| ≤ |a| + |b| + |c| + |d| + |e| + |f| := by
    intro a b c d e f
    have := abs_add_le (a + b + c + d + e) f
    have := abs_add_le (a + b + c + d) e
    have := abs_add_le (a + b + c) d
    have := abs_add_le (a + b) c
    have := abs_add_le a b
    linarith
  refine (tri _ _ _ _ _ _).trans ?_
  simp only [abs_mul, abs_pow, abs_two]
  linarith

/-- Ratios of eigenvalues of tensors which differ little. -/
theorem ratios_near {t t' : Tensor} {e e' : Eigen} (h : IsEigen t e) (h' : IsEigen t' e') {δ : ℝ} (hδ : 0 ≤ δ) (hδ1 : δ ≤ 1 / 2)
    (h0 : 0 ≤ e.val 0) (h2 : 0 < e.val 2) (hd : ∀ v, |form t' v - form t v| ≤ δ * e.val 2 * dot v v) :
    0 < e'.val 2 ∧ |e'.val 1 / e'.val 2 - e.val 1 / e.val 2| ≤ 12 * δ ∧ |e'.val 0 / e'.val 2 - e.val 0 / e.val 2| ≤ 12 * δ := by
  obtain ⟨n0, n1, n2⟩ := eigenvalues_near h h' hd
  have hp := mul_nonneg hδ h2.le
  have hpos : e.val 2 / 2 ≤ e'.val 2 := by
    have := (abs_le.1 n2).1
    nlinarith
  have hpos' : 0 < e'.val 2 := by linarith
  have gen : ∀ a a' : ℝ, 0 ≤ a → a ≤ e.val 2 → |a' - a| ≤ 5 * (δ * e.val 2) → |a' / e'.val 2 - a / e.val 2| ≤ 12 * δ := by
    intro a a' ha ha2 hn
    have e1 : a' / e'.val 2 - a / e.val 2 = ((a' - a) * e.val 2 - a * (e'.val 2 - e.val 2)) / (e'.val 2 * e.val 2) := by
      field_simp
      ring
    rw [e1, abs_div, abs_of_pos (mul_pos hpos' h2), div_le_iff₀ (mul_pos hpos' h2)]
    have e2 : |(a' - a) * e.val 2 - a * (e'.val 2 - e.val 2)| ≤ |a' - a| * e.val 2 + a * |e'.val 2 - e.val 2| := by
      refine (abs_sub _ _).trans (le_of_eq ?_)
      rw [abs_mul, abs_mul, abs_of_pos h2, abs_of_nonneg ha]
    have e3 : |a' - a| * e.val 2 ≤ 5 * (δ * e.val 2) * e.val 2 := mul_le_mul_of_nonneg_right hn h2.le
    have e4 : a * |e'.val 2 - e.val 2| ≤ e.val 2 * (δ * e.val 2) := mul_le_mul ha2 n2 (abs_nonneg _) h2.le
    have e5 : 12 * δ * (e.val 2 / 2 * e.val 2) ≤ 12 * δ * (e'.val 2 * e.val 2) :=
      mul_le_mul_of_nonneg_left (mul_le_mul_of_nonneg_right hpos h2.le) (by linarith)
    linarith
  obtain ⟨o1, o2⟩ := h.ordered
  exact ⟨hpos', gen _ _ (h0.trans o1) o2 n1, gen _ _ h0 (o1.trans o2) (n0.trans (by linarith))⟩

theorem rootRatio_near (R : Rounding) {a b x : ℝ} (hb : 0 < b) (hab : a ≤ b) (hu : 3 * R.u ≤ 1 / 2) (h : rootRatio R a b = some x) :
    |x ^ 2 - a / b| ≤ 6 * R.u := by
  unfold rootRatio at h
  rw [if_neg hb.ne'] at h
  split at h
  · cases h
  · next hneg =>
    obtain rfl := Option.some.inj h
    have hpos : 0 ≤ R.div a b := not_lt.1 hneg
    have h1 : Rel R 1 (R.div a b) (a / b) := rel_rnd R _
    have h2 := (rel_rnd R √(R.div a b)).pow 2
    rw [Real.sq_sqrt hpos] at h2
    have h3 := h2.trans h1
    have h4 := h3.err' (by norm_num; linarith)
    have h5 : 0 ≤ a / b := by
      by_contra hn
      push Not at hn
      obtain ⟨t, e, ht, -⟩ := h1
      have ht' : 0 < t := (pow_pos (base_pos R) 1).trans_le ht
      rw [e] at hpos
      nlinarith
    have h6 : |a / b| ≤ 1 := by
      rw [abs_of_nonneg h5]
      exact (div_le_one hb).2 hab
    have hu0 := R.u_nonneg
    refine h4.trans ?_
    norm_num
    nlinarith

theorem rootRatio_some (R : Rounding) {a b : ℝ} (hb : 0 < b) (ha : 0 ≤ a) : ∃ x, rootRatio R a b = some x := by
  unfold rootRatio
  have h : ¬ R.div a b < 0 := not_lt.2 (rnd_nonneg R (div_nonneg ha hb.le))
  rw [if_neg hb.ne', if_neg h]
  exact ⟨_, rfl⟩

theorem exact_eq (reduced : Bool) (mt : ℝ) (c : Vec ℝ) (ps : List (Particle ℝ × ℝ)) (i j : Fin 3) :
    exactTensor reduced mt c ps i j = moments reduced c ps i j / mt := by
  unfold exactTensor moments weight offset
  rw [div_eq_mul_inv, ← List.sum_map_mul_right]
  congr 1
  exact List.map_congr_left fun p _ => by ring

/-- The computed eigensystem is that of a tensor close to the exact one. -/
theorem solver_near (R S : Rounding) (β : ℝ) (hβ0 : 0 ≤ β) (hβ : β ≤ 1 / 5) (sol : Solver) (hsol : BackwardStable β sol) (reduced : Bool)
    (c : Vec ℝ) (ps : List (Particle ℝ × ℝ)) (hm : ∀ p ∈ ps, 0 < p.1.mass) (hu : 24 * (ps.length + 8) * R.u ≤ 1)
    (l : Eigen) (hl : IsEigen (moments reduced c ps) l) (hl2 : 0 < l.val 2) :
    ∃ (T' : Tensor) (mt δ : ℝ), IsEigen T' (sol (roundedTensor R S reduced c ps)) ∧ 0 < mt ∧ 0 ≤ δ ∧ δ ≤ 1 / 2 ∧
      12 * δ + 6 * R.u ≤ 72 * (ps.length + 8) * R.u + 15 * β ∧ 0 ≤ l.val 0 ∧
      ∀ v, |form T' v - form (moments reduced c ps) v / mt| ≤ δ * (l.val 2 / mt) * dot v v := by
  have hne : ps ≠ [] := by
    rintro rfl
    have h1 := form_vec hl 2
    have h2 : form (moments reduced c []) (l.vec 2) = 0 := by simp [form, dot, moments]
    rw [h2] at h1
    have := mul_pos hl2 (dot_self_pos (hl.nonzero 2))
    linarith
  have hmt : 0 < totalSingle R S (ps.map fun p => p.1.mass) := totalSingle_pos R S _ (by simpa using hne) (by
    intro m hm'
    obtain ⟨p, hp, rfl⟩ := List.mem_map.1 hm'
    exact hm p hp)
  have hu0 := R.u_nonneg
  have hn0 : (0 : ℝ) ≤ ps.length := Nat.cast_nonneg _
  have hu8 : 192 * R.u ≤ 1 := by
    have := mul_nonneg hn0 hu0
    linarith
  have hu7 : ((ps.length + 7 : ℕ) : ℝ) * R.u ≤ 1 / 24 := by push_cast; nlinarith
  have hnear := rounded_near R reduced _ hmt c ps hm (hu7.trans (by norm_num))
  have hnn := exact_nonneg reduced _ hmt c ps hm
  have hex := exact_eq reduced (totalSingle R S (ps.map fun p => p.1.mass)) c ps
  have hsymm : ∀ i j, roundedTensor R S reduced c ps i j = roundedTensor R S reduced c ps j i := by
    intro i j
    fin_cases i <;> fin_cases j <;> rfl
  change ∀ v, |form (roundedTensor R S reduced c ps) v - _| ≤ _ at hnear
  generalize totalSingle R S (ps.map fun p => p.1.mass) = mt at hmt hnear hnn hex
  -- the exact eigensystem
  have hA : IsEigen (exactTensor reduced mt c ps) ⟨fun k => l.val k / mt, l.vec⟩ :=
    ⟨⟨div_le_div_of_nonneg_right hl.ordered.1 hmt.le, div_le_div_of_nonneg_right hl.ordered.2 hmt.le⟩, fun k i => by
      have := hl.eigen k i
      simp only [hex]
      linear_combination mt⁻¹ * this, hl.orth, hl.nonzero⟩
  have hform : ∀ v, form (exactTensor reduced mt c ps) v = form (moments reduced c ps) v / mt := by
    intro v
    simp only [form, dot, hex]
    ring
  set T := roundedTensor R S reduced c ps with hT
  obtain ⟨T', hT', hback⟩ := hsol T hsymm
  set a0 := l.val 0 / mt with ha0
  set a1 := l.val 1 / mt with ha1
  set a2 := l.val 2 / mt with ha2
  have ha2p : 0 < a2 := div_pos hl2 hmt
  have ha0p : 0 ≤ a0 := by
    have h1 := form_vec hA 0
    have h2 := hnn (l.vec 0)
    simp only at h1
    rw [h1] at h2
    exact nonneg_of_mul_nonneg_left h2 (dot_self_pos (hl.nonzero 0))
  have htr : exactTensor reduced mt c ps 0 0 + exactTensor reduced mt c ps 1 1 + exactTensor reduced mt c ps 2 2 ≤ 3 * a2 := by
    have h1 := trace_eq hA
    have h2 : a0 ≤ a1 := hA.ordered.1
    have h3 : a1 ≤ a2 := hA.ordered.2
    simp only at h1
    rw [h1]
    linarith
  set g := 2 * ((ps.length + 7 : ℕ) : ℝ) * R.u with hg
  have hg0 : 0 ≤ g := by rw [hg]; positivity
  have hg1 : g ≤ 1 / 12 := by rw [hg]; linarith
  have hdd : ∀ v : Vec ℝ, 0 ≤ dot v v := fun v => by
    unfold dot
    nlinarith [sq_nonneg (v 0), sq_nonneg (v 1), sq_nonneg (v 2)]
  have hnear' : ∀ v, |form T v - form (exactTensor reduced mt c ps) v| ≤ 3 * g * a2 * dot v v := by
    intro v
    refine (hnear v).trans (mul_le_mul_of_nonneg_right ?_ (hdd v))
    have := mul_le_mul_of_nonneg_left htr hg0
    linarith
  have hTn : ∀ v, |form T v| ≤ (1 + 3 * g) * a2 * dot v v := by
    intro v
    have h1 := abs_le.1 (hnear' v)
    have h2 := (form_le hA v).2
    have h3 := hnn v
    simp only at h2
    have h4 : 0 ≤ a2 * dot v v := mul_nonneg ha2p.le (hdd v)
    rw [abs_le]
    constructor <;> nlinarith
  set δ := 3 * g + β * (1 + 3 * g) with hδ
  have hδ0 : 0 ≤ δ := by positivity
  have hδ1 : δ ≤ 1 / 2 := by
    have := mul_le_mul hβ hg1 hg0 (by norm_num)
    rw [hδ]; linarith
  have hall : ∀ v, |form T' v - form (exactTensor reduced mt c ps) v| ≤ δ * a2 * dot v v := by
    intro v
    have h1 := hback _ hTn v
    have h2 := hnear' v
    have h3 : form T' v - form (exactTensor reduced mt c ps) v = (form T' v - form T v) + (form T v - form (exactTensor reduced mt c ps) v) := by
      ring
    rw [h3]
    refine (abs_add_le _ _).trans ?_
    have : δ * a2 * dot v v = β * ((1 + 3 * g) * a2) * dot v v + 3 * g * a2 * dot v v := by rw [hδ]; ring
    linarith
  refine ⟨T', mt, δ, hT', hmt, hδ0, hδ1, ?_, ?_, fun v => by rw [← hform]; exact hall v⟩
  · have hgb : g * β ≤ 1 / 12 * β := mul_le_mul_of_nonneg_right hg1 hβ0
    have h1 : 12 * δ ≤ 36 * g + 15 * β := by rw [hδ]; linarith
    have h2 : 36 * g = 72 * (ps.length + 7) * R.u := by rw [hg]; push_cast; ring
    linarith
  · have h1 := mul_nonneg ha0p hmt.le
    rwa [ha0, div_mul_cancel₀ _ hmt.ne'] at h1

/-- C169. `l` are the exact moments along the exact principal axes of the particles used in an iteration. The squares of the axis ratios are
right up to the `bound`, they are numbers if the object is not flatter than that, the reported major axis is one along which the moment is
largest and the minor axis one along which it is smallest, up to the `bound`. (Particles at the centre raise a ZeroDivisionError for the reduced
tensor.) -/
theorem C169_ratios (R S : Rounding) (β : ℝ) (hβ0 : 0 ≤ β) (hβ : β ≤ 1 / 5) (sol : Solver) (hsol : BackwardStable β sol) (reduced : Bool)
    (c : Vec ℝ) (ps : List (Particle ℝ × ℝ)) (hm : ∀ p ∈ ps, 0 < p.1.mass) (_hr : reduced = true → ∀ p ∈ ps, p.2 ≠ 0)
    (hu : 24 * (ps.length + 8) * R.u ≤ 1)
    (l : Eigen) (hl : IsEigen (moments reduced c ps) l) (hl2 : 0 < l.val 2) :
    let e := sol (roundedTensor R S reduced c ps)
    let bound := 72 * (ps.length + 8) * R.u + 15 * β
    (∀ q, rootRatio R (e.val 1) (e.val 2) = some q → |q ^ 2 - l.val 1 / l.val 2| ≤ bound) ∧
    (∀ s, rootRatio R (e.val 0) (e.val 2) = some s → |s ^ 2 - l.val 0 / l.val 2| ≤ bound) ∧
    (bound < l.val 0 / l.val 2 → ∃ q s, rootRatio R (e.val 1) (e.val 2) = some q ∧ rootRatio R (e.val 0) (e.val 2) = some s) ∧
    (1 - bound) * l.val 2 * dot (e.vec 2) (e.vec 2) ≤ form (moments reduced c ps) (e.vec 2) ∧
    form (moments reduced c ps) (e.vec 0) ≤ (l.val 0 + bound * l.val 2) * dot (e.vec 0) (e.vec 0) := by
  intro e bound
  obtain ⟨T', mt, δ, hT', hmt, hδ0, hδ1, hbd, hl0, hall⟩ := solver_near R S β hβ0 hβ sol hsol reduced c ps hm hu l hl hl2
  change IsEigen T' e at hT'
  change _ ≤ bound at hbd
  have hu0 := R.u_nonneg
  have hn0 : (0 : ℝ) ≤ ps.length := Nat.cast_nonneg _
  have hu8 : 192 * R.u ≤ 1 := by
    have := mul_nonneg hn0 hu0
    linarith
  set N : Tensor := fun i j => moments reduced c ps i j / mt with hN
  have hA : IsEigen N ⟨fun k => l.val k / mt, l.vec⟩ :=
    ⟨⟨div_le_div_of_nonneg_right hl.ordered.1 hmt.le, div_le_div_of_nonneg_right hl.ordered.2 hmt.le⟩, fun k i => by
      have := hl.eigen k i
      simp only [hN]
      linear_combination mt⁻¹ * this, hl.orth, hl.nonzero⟩
  have hform : ∀ v, form N v = form (moments reduced c ps) v / mt := by
    intro v
    simp only [form, dot, hN]
    ring
  have hdd : ∀ v : Vec ℝ, 0 ≤ dot v v := fun v => by
    unfold dot
    nlinarith [sq_nonneg (v 0), sq_nonneg (v 1), sq_nonneg (v 2)]
  set a0 := l.val 0 / mt with ha0
  set a1 := l.val 1 / mt with ha1
  set a2 := l.val 2 / mt with ha2
  have ha2p : 0 < a2 := div_pos hl2 hmt
  have ha0p : 0 ≤ a0 := div_nonneg hl0 hmt.le
  simp only [← hform] at hall
  obtain ⟨hpos, r1, r0⟩ := ratios_near hA hT' hδ0 hδ1 ha0p ha2p hall
  obtain ⟨n0, -, n2⟩ := eigenvalues_near hA hT' hall
  simp only at r1 r0 n0 n2
  have e1 : a1 / a2 = l.val 1 / l.val 2 := by rw [ha1, ha2]; field_simp
  have e0 : a0 / a2 = l.val 0 / l.val 2 := by rw [ha0, ha2]; field_simp
  rw [show l.val 1 / mt / (l.val 2 / mt) = a1 / a2 from rfl, e1] at r1
  rw [show l.val 0 / mt / (l.val 2 / mt) = a0 / a2 from rfl, e0] at r0
  have hu3 : 3 * R.u ≤ 1 / 2 := by linarith
  have hbd2 : 2 * δ ≤ bound := by linarith
  refine ⟨?_, ?_, ?_, ?_, ?_⟩
  · intro q hq
    have h1 := rootRatio_near R hpos hT'.ordered.2 hu3 hq
    have h2 := abs_sub_le (q ^ 2) (e.val 1 / e.val 2) (l.val 1 / l.val 2)
    linarith
  · intro s hs
    have h1 := rootRatio_near R hpos (hT'.ordered.1.trans hT'.ordered.2) hu3 hs
    have h2 := abs_sub_le (s ^ 2) (e.val 0 / e.val 2) (l.val 0 / l.val 2)
    linarith
  · intro hlt
    have h1 := (abs_le.1 r0).1
    have h2 : 0 < e.val 0 / e.val 2 := by linarith
    have h3 : 0 < e.val 0 := (div_pos_iff_of_pos_right hpos).1 h2
    obtain ⟨q, hq⟩ := rootRatio_some R hpos (h3.le.trans hT'.ordered.1)
    obtain ⟨s, hs⟩ := rootRatio_some R hpos h3.le
    exact ⟨q, s, hq, hs⟩
  · have h1 := form_vec hT' 2
    have h2 := (abs_le.1 (hall (e.vec 2))).2
    have h3 := (abs_le.1 n2).1
    have hd := hdd (e.vec 2)
    rw [h1, hform] at h2
    have h4 : (1 - bound) * a2 * dot (e.vec 2) (e.vec 2) ≤ form (moments reduced c ps) (e.vec 2) / mt := by
      have h5 : (a2 - δ * a2) * dot (e.vec 2) (e.vec 2) ≤ e.val 2 * dot (e.vec 2) (e.vec 2) :=
        mul_le_mul_of_nonneg_right (by linarith) hd
      have h6 : 2 * δ * (a2 * dot (e.vec 2) (e.vec 2)) ≤ bound * (a2 * dot (e.vec 2) (e.vec 2)) :=
        mul_le_mul_of_nonneg_right hbd2 (mul_nonneg ha2p.le hd)
      linarith
    rw [le_div_iff₀ hmt] at h4
    have h7 : a2 * mt = l.val 2 := by rw [ha2]; field_simp
    calc (1 - bound) * l.val 2 * dot (e.vec 2) (e.vec 2) = (1 - bound) * a2 * dot (e.vec 2) (e.vec 2) * mt := by rw [← h7]; ring
      _ ≤ _ := h4
  · have h1 := form_vec hT' 0
    have h2 := (abs_le.1 (hall (e.vec 0))).1
    have h3 := (abs_le.1 n0).2
    have hd := hdd (e.vec 0)
    rw [h1, hform] at h2
    have h4 : form (moments reduced c ps) (e.vec 0) / mt ≤ (a0 + bound * a2) * dot (e.vec 0) (e.vec 0) := by
      have h5 : e.val 0 * dot (e.vec 0) (e.vec 0) ≤ (a0 + δ * a2) * dot (e.vec 0) (e.vec 0) :=
        mul_le_mul_of_nonneg_right (by linarith) hd
      have h6 : 2 * δ * (a2 * dot (e.vec 0) (e.vec 0)) ≤ bound * (a2 * dot (e.vec 0) (e.vec 0)) :=
        mul_le_mul_of_nonneg_right hbd2 (mul_nonneg ha2p.le hd)
      linarith
    rw [div_le_iff₀ hmt] at h4
    have h7 : a2 * mt = l.val 2 := by rw [ha2]; field_simp
    have h8 : a0 * mt = l.val 0 := by rw [ha0]; field_simp
    calc _ ≤ (a0 + bound * a2) * dot (e.vec 0) (e.vec 0) * mt := h4
      _ = _ := by rw [← h7, ← h8]; ring

/-- Particles on the axes at distances 3, 2, 1. -/
def axisParticles : List (Particle ℝ × ℝ) :=
  [(⟨![3, 0, 0], 1⟩, 1), (⟨![-3, 0, 0], 1⟩, 1), (⟨![0, 2, 0], 1⟩, 1), (⟨![0, -2, 0], 1⟩, 1), (⟨![0, 0, 1], 1⟩, 1), (⟨![0, 0, -1], 1⟩, 1)]

/-- Six particles in double precision: the ratios 2/3 and 1/3 are found to twelve digits. -/
example (sol : Solver) (hsol : GoodSolver sol) :
    let e := sol (roundedTensor float64 float32 false 0 axisParticles)
    ∃ q s, rootRatio float64 (e.val 1) (e.val 2) = some q ∧ rootRatio float64 (e.val 0) (e.val 2) = some s ∧
      |q ^ 2 - 4 / 9| ≤ 1 / 10 ^ 12 ∧ |s ^ 2 - 1 / 9| ≤ 1 / 10 ^ 12 := by
  have hl : IsEigen (moments false 0 axisParticles) ⟨![2, 8, 18], ![![0, 0, 1], ![0, 1, 0], ![1, 0, 0]]⟩ := by
    refine ⟨by simp; norm_num, ?_, ?_, ?_⟩
    · intro k i
      fin_cases k <;> fin_cases i <;> simp [moments, axisParticles] <;> norm_num
    · intro k l h
      fin_cases k <;> fin_cases l <;> simp_all [dot]
    · intro k
      fin_cases k <;> simp
  have hu : float64.u = 1 / 2 ^ 53 := by rw [show float64.u = (1 / 2) ^ 53 from rfl]; norm_num
  have h := C169_ratios float64 float32 0 le_rfl (by norm_num) sol (GoodSolver.stable hsol) false 0 axisParticles
    (by simp [axisParticles]) (by simp) (by rw [hu]; simp [axisParticles]; norm_num) _ hl (by simp)
  obtain ⟨h1, h2, h3, -⟩ := h
  obtain ⟨q, s, hq, hs⟩ := h3 (by rw [hu]; simp [axisParticles]; norm_num)
  refine ⟨q, s, hq, hs, ?_, ?_⟩
  · have := h1 q hq
    rw [hu] at this
    refine (le_of_eq ?_).trans (this.trans ?_)
    · simp; norm_num
    · simp [axisParticles]; norm_num
  · have := h2 s hs
    rw [hu] at this
    refine (le_of_eq ?_).trans (this.trans ?_)
    · simp; norm_num
    · simp [axisParticles]; norm_num

end Verif.Round
