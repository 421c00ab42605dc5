import Verif.Stats.Model
import Verif.Periodic.Lemmas
import Mathlib.Algebra.QuadraticDiscriminant
import Mathlib.Analysis.Complex.Trigonometric

/-!
# Complex ellipticity (C43)
-/

namespace Verif.Stats

open Periodic (respectPBCNoRef reference unwrapAxis calcMode calcMode_succ calcCoM calcCoM_eq)

/-- Rotating the particles mixes the moments. -/
theorem moment_rotate (c : Vec ℝ) (a : ℝ) (ps : List (Particle ℝ)) :
    moment c a ps 0 0 = Real.cos a ^ 2 * moment c 0 ps 0 0 - 2 * Real.cos a * Real.sin a * moment c 0 ps 0 1 +
      Real.sin a ^ 2 * moment c 0 ps 1 1 ∧
    moment c a ps 1 1 = Real.sin a ^ 2 * moment c 0 ps 0 0 + 2 * Real.cos a * Real.sin a * moment c 0 ps 0 1 +
      Real.cos a ^ 2 * moment c 0 ps 1 1 ∧
    moment c a ps 0 1 = Real.cos a * Real.sin a * moment c 0 ps 0 0 +
      (Real.cos a ^ 2 - Real.sin a ^ 2) * moment c 0 ps 0 1 - Real.cos a * Real.sin a * moment c 0 ps 1 1 := by
  unfold moment
  have key : ∀ f0 f1 f2 f3 : Particle ℝ → ℝ, ∀ u v w : ℝ,
      (∀ p, f0 p = u * f1 p + v * f2 p + w * f3 p) →
      (ps.map f0).sum = u * (ps.map f1).sum + v * (ps.map f2).sum + w * (ps.map f3).sum := by
    intro f0 f1 f2 f3 u v w h
    rw [← sum_map_mul_left', ← sum_map_mul_left', ← sum_map_mul_left', ← sum_map_add', ← sum_map_add']
    congr 1
    exact List.map_congr_left fun p _ => h p
  refine ⟨?_, ?_, ?_⟩
  · rw [key _ (fun p => p.mass * (rotateZ 0 (p.pos - c) 0 * rotateZ 0 (p.pos - c) 0))
      (fun p => p.mass * (rotateZ 0 (p.pos - c) 0 * rotateZ 0 (p.pos - c) 1))
      (fun p => p.mass * (rotateZ 0 (p.pos - c) 1 * rotateZ 0 (p.pos - c) 1))
      (Real.cos a ^ 2) (-(2 * Real.cos a * Real.sin a)) (Real.sin a ^ 2)]
    · ring
    · intro p; simp [rotateZ]; ring
  · rw [key _ (fun p => p.mass * (rotateZ 0 (p.pos - c) 0 * rotateZ 0 (p.pos - c) 0))
      (fun p => p.mass * (rotateZ 0 (p.pos - c) 0 * rotateZ 0 (p.pos - c) 1))
      (fun p => p.mass * (rotateZ 0 (p.pos - c) 1 * rotateZ 0 (p.pos - c) 1))
      (Real.sin a ^ 2) (2 * Real.cos a * Real.sin a) (Real.cos a ^ 2)]
    · ring
    · intro p; simp [rotateZ]; ring
  · rw [key _ (fun p => p.mass * (rotateZ 0 (p.pos - c) 0 * rotateZ 0 (p.pos - c) 0))
      (fun p => p.mass * (rotateZ 0 (p.pos - c) 0 * rotateZ 0 (p.pos - c) 1))
      (fun p => p.mass * (rotateZ 0 (p.pos - c) 1 * rotateZ 0 (p.pos - c) 1))
      (Real.cos a * Real.sin a) (Real.cos a ^ 2 - Real.sin a ^ 2) (-(Real.cos a * Real.sin a))]
    · ring
    · intro p; simp [rotateZ]; ring

/-- Rotation about a given center. -/
theorem epsilonAbout_rotate (c : Vec ℝ) (a : ℝ) (ps : List (Particle ℝ)) :
    epsilonAbout c a ps = (epsilonAbout c 0 ps).map (Complex.exp (2 * a * Complex.I) * ·) := by
  obtain ⟨h1, h2, h3⟩ := moment_rotate c a ps
  unfold epsilonAbout
  simp only
  rw [h1, h2, h3]
  set A := moment c 0 ps 0 0
  set B := moment c 0 ps 1 1
  set C := moment c 0 ps 0 1
  have hcs := Real.sin_sq_add_cos_sq a
  have htr : Real.cos a ^ 2 * A - 2 * Real.cos a * Real.sin a * C + Real.sin a ^ 2 * B +
      (Real.sin a ^ 2 * A + 2 * Real.cos a * Real.sin a * C + Real.cos a ^ 2 * B) = A + B := by
    linear_combination (A + B) * hcs
  rw [htr]
  split
  · rfl
  · simp only [Option.map_some, Option.some.injEq]
    rw [show (2 * a * Complex.I : ℂ) = ((2 * a : ℝ) : ℂ) * Complex.I by push_cast; ring,
      Complex.exp_mul_I, ← Complex.ofReal_cos, ← Complex.ofReal_sin, Real.cos_two_mul', Real.sin_two_mul]
    push_cast
    linear_combination (-(2 * Complex.sin a * Complex.cos a * (2 * (C : ℂ) / (A + B)))) * Complex.I_sq

/-- C43. Rotating the image by `angle` multiplies the ellipticity by `exp(2 i angle)`. -/
theorem C43_rotation (choose : Nat → List Nat) (fuel : Nat) (mode : Bool) (L angle : ℝ)
    (ps : List (Particle ℝ)) :
    epsilon choose fuel mode L angle ps =
      (epsilon choose fuel mode L 0 ps).map (Option.map (Complex.exp (2 * angle * Complex.I) * ·)) := by
  unfold epsilon
  simp only
  cases mode
  · simp only [Bool.false_eq_true, if_false, Option.map_some]
    rw [epsilonAbout_rotate]
  · simp only [if_true, Option.map_map]
    congr 1
    funext c
    exact epsilonAbout_rotate _ _ _

/-- Cauchy-Schwarz inequality for the moments. -/
theorem moment_cs (c : Vec ℝ) (a : ℝ) (ps : List (Particle ℝ)) (hm : ∀ p ∈ ps, 0 ≤ p.mass) :
    0 ≤ moment c a ps 0 0 ∧ 0 ≤ moment c a ps 1 1 ∧
      moment c a ps 0 1 ^ 2 ≤ moment c a ps 0 0 * moment c a ps 1 1 := by
  have hM : 0 ≤ (ps.map fun p => p.mass).sum := sum_map_nonneg' ps _ hm
  have hd : ∀ i, 0 ≤ moment c a ps i i := fun i =>
    div_nonneg (sum_map_nonneg' ps _ fun p hp => mul_nonneg (hm p hp) (mul_self_nonneg _)) hM
  refine ⟨hd 0, hd 1, ?_⟩
  have hquad : ∀ t : ℝ, 0 ≤ moment c a ps 0 0 * (t * t) + 2 * moment c a ps 0 1 * t + moment c a ps 1 1 := by
    intro t
    unfold moment
    have e : (ps.map fun p => p.mass * ((t * rotateZ a (p.pos - c) 0 + rotateZ a (p.pos - c) 1) *
        (t * rotateZ a (p.pos - c) 0 + rotateZ a (p.pos - c) 1))).sum =
        (t * t) * (ps.map fun p => p.mass * (rotateZ a (p.pos - c) 0 * rotateZ a (p.pos - c) 0)).sum +
        (2 * t) * (ps.map fun p => p.mass * (rotateZ a (p.pos - c) 0 * rotateZ a (p.pos - c) 1)).sum +
        (ps.map fun p => p.mass * (rotateZ a (p.pos - c) 1 * rotateZ a (p.pos - c) 1)).sum := by
      rw [← sum_map_mul_left', ← sum_map_mul_left', ← sum_map_add', ← sum_map_add']
      congr 1
      exact List.map_congr_left fun p _ => by ring
    have h0 : 0 ≤ (ps.map fun p => p.mass * ((t * rotateZ a (p.pos - c) 0 + rotateZ a (p.pos - c) 1) *
        (t * rotateZ a (p.pos - c) 0 + rotateZ a (p.pos - c) 1))).sum :=
      sum_map_nonneg' ps _ fun p hp => mul_nonneg (hm p hp) (mul_self_nonneg _)
    have h1 := div_nonneg h0 hM
    rw [e] at h1
    calc (0 : ℝ) ≤ _ := h1
      _ = _ := by ring
  have := discrim_le_zero hquad
  unfold discrim at this
  linarith

/-- C43. The modulus of the ellipticity is at most one. -/
theorem C43_modulus (choose : Nat → List Nat) (fuel : Nat) (mode : Bool) (L angle : ℝ)
    (ps : List (Particle ℝ)) (hm : ∀ p ∈ ps, 0 ≤ p.mass) (e : ℂ)
    (h : epsilon choose fuel mode L angle ps = some (some e)) : ‖e‖ ≤ 1 := by
  have key : ∀ (c : Vec ℝ) (ps : List (Particle ℝ)), (∀ p ∈ ps, 0 ≤ p.mass) →
      epsilonAbout c angle ps = some e → ‖e‖ ≤ 1 := by
    intro c ps hm he
    obtain ⟨h1, h2, h3⟩ := moment_cs c angle ps hm
    unfold epsilonAbout at he
    simp only at he
    split at he
    · cases he
    · rename_i hne
      push Not at hne
      obtain rfl := Option.some.inj he
      set A := moment c angle ps 0 0
      set B := moment c angle ps 1 1
      set C := moment c angle ps 0 1
      have hpos : 0 < A + B := lt_of_le_of_ne (by linarith) (Ne.symm hne.2)
      rw [← sq_le_one_iff₀ (norm_nonneg _), Complex.sq_norm, Complex.normSq_apply]
      simp only [Complex.add_re, Complex.add_im, Complex.mul_re, Complex.mul_im, Complex.I_re, Complex.I_im,
        Complex.ofReal_re, Complex.ofReal_im]
      have : (A - B) / (A + B) * ((A - B) / (A + B)) + 2 * C / (A + B) * (2 * C / (A + B)) =
          ((A - B) ^ 2 + 4 * C ^ 2) / (A + B) ^ 2 := by
        field_simp; ring
      calc _ = ((A - B) ^ 2 + 4 * C ^ 2) / (A + B) ^ 2 := by rw [← this]; ring
        _ ≤ 1 := by
          rw [div_le_one (by positivity)]
          nlinarith
  unfold epsilon at h
  simp only at h
  have hm' : ∀ p ∈ List.zipWith (fun x p => (⟨x, p.mass⟩ : Particle ℝ))
      (respectPBCNoRef (choose ps.length) (ps.map fun p => p.pos) L) ps, 0 ≤ p.mass := by
    intro p hp
    obtain ⟨i, hi⟩ := List.mem_iff_getElem?.1 hp
    rw [List.getElem?_zipWith] at hi
    split at hi
    · rename_i x q hx hq
      rw [← Option.some.inj hi]
      exact hm q (List.mem_of_getElem? hq)
    · cases hi
  cases mode
  · simp only [Bool.false_eq_true, if_false, Option.some.injEq] at h
    exact key _ _ hm' h
  · simp only [if_true] at h
    obtain ⟨c, -, hc⟩ := Option.map_eq_some_iff.1 h
    exact key c _ hm' hc

/-- Two particles on the first axis have ellipticity 1, on the second axis -1. -/
example : epsilonAbout ![0, 0, 0] 0 [⟨![1, 0, 0], 1⟩, ⟨![-1, 0, 0], 1⟩] = some 1 ∧
    epsilonAbout ![0, 0, 0] 0 [⟨![0, 1, 0], 1⟩, ⟨![0, -1, 0], 1⟩] = some (-1) := by
  constructor <;> norm_num [epsilonAbout, moment, rotateZ]

/-! ## Order and mass unit -/

/-- Particles moved to the image used in the calculation. -/
theorem unwrapped_eq (choose : List Nat) (L : ℝ) (ps : List (Particle ℝ)) :
    List.zipWith (fun x p => (⟨x, p.mass⟩ : Particle ℝ)) (respectPBCNoRef choose (ps.map fun p => p.pos) L) ps =
      ps.map fun p => (⟨if L ≠ 0 then fun i => unwrapAxis L (reference choose (ps.map fun p => p.pos) i) (p.pos i)
        else p.pos, p.mass⟩ : Particle ℝ) := by
  unfold respectPBCNoRef
  generalize hr : reference choose (ps.map fun p => p.pos) = r
  by_cases h : L ≠ 0
  · simp only [if_pos h]
    clear hr
    induction ps with
    | nil => rfl
    | cons p ps ih => simp only [List.map_cons, List.zipWith_cons_cons, ih]
  · simp only [if_neg h]
    clear hr
    induction ps with
    | nil => rfl
    | cons p ps ih => simp only [List.map_cons, List.zipWith_cons_cons, ih]

theorem reference_perm (choose choose' : List Nat) (xs xs' : List (Vec ℝ)) (h : xs.Perm xs')
    (hc : choose.Perm (List.range xs.length)) (hc' : choose'.Perm (List.range xs'.length)) :
    reference choose xs = reference choose' xs' := by
  have full : ∀ (l : List (Vec ℝ)), (List.range l.length).filterMap (fun j => l[j]?) = l := by
    intro l
    apply List.ext_getElem?
    intro i
    induction l using List.reverseRecOn generalizing i with
    | nil => simp
    | append_singleton l a ih =>
      rw [List.length_append, List.length_singleton, List.range_succ, List.filterMap_append]
      have e : (List.range l.length).filterMap (fun j => (l ++ [a])[j]?) =
          (List.range l.length).filterMap fun j => l[j]? := by
        apply List.filterMap_congr
        intro j hj
        rw [List.getElem?_append_left (List.mem_range.1 hj)]
      rw [e, List.ext_getElem? ih]
      simp
  have hp : ∀ (ch : List Nat) (l : List (Vec ℝ)), ch.Perm (List.range l.length) →
      (ch.filterMap fun j => l[j]?).Perm l := by
    intro ch l hch
    have := hch.filterMap fun j => l[j]?
    rwa [full] at this
  have hq := (hp choose xs hc).trans (h.trans (hp choose' xs' hc').symm)
  funext i
  unfold reference
  rw [(hq.map fun p => p i).sum_eq, hq.length_eq]

theorem weightedMean_perm {ps ps' : List (Particle ℝ)} (h : ps.Perm ps') : weightedMean ps = weightedMean ps' := by
  funext i
  unfold weightedMean totalMass
  rw [(h.map _).sum_eq, (h.map fun p => p.mass).sum_eq]

theorem calcMode_perm (fuel : Nat) (ps ps' : List (Particle ℝ)) (h : ps.Perm ps') (rad : ℝ) :
    calcMode fuel ps rad = calcMode fuel ps' rad := by
  induction fuel generalizing ps ps' rad with
  | zero => rfl
  | succ n ih =>
    rw [calcMode_succ, calcMode_succ, weightedMean_perm h, (h.filter _).length_eq]
    split
    · rfl
    · exact ih _ _ (h.filter _) _

theorem foldr_max_spec (l : List ℝ) (h : l ≠ []) :
    l.foldr max (l.headD 0) ∈ l ∧ ∀ x ∈ l, x ≤ l.foldr max (l.headD 0) := by
  have key : ∀ (l : List ℝ) (a : ℝ), (l.foldr max a = a ∨ l.foldr max a ∈ l) ∧ a ≤ l.foldr max a ∧
      ∀ x ∈ l, x ≤ l.foldr max a := by
    intro l a
    induction l with
    | nil => simp
    | cons b l ih =>
      obtain ⟨h1, h2, h3⟩ := ih
      simp only [List.foldr_cons]
      refine ⟨?_, h2.trans (le_max_right _ _), ?_⟩
      · rcases max_choice b (l.foldr max a) with e | e
        · right; rw [e]; simp
        · rw [e]
          rcases h1 with h1 | h1
          · left; exact h1
          · right; exact List.mem_cons_of_mem _ h1
      · intro x hx
        rcases List.mem_cons.1 hx with rfl | hx
        · exact le_max_left _ _
        · exact (h3 x hx).trans (le_max_right _ _)
  cases l with
  | nil => exact absurd rfl h
  | cons b l =>
    obtain ⟨h1, -, h3⟩ := key (b :: l) b
    refine ⟨?_, h3⟩
    rcases h1 with h1 | h1
    · simp only [List.headD_cons]; rw [h1]; simp
    · exact h1

theorem foldr_min_spec (l : List ℝ) (h : l ≠ []) :
    l.foldr min (l.headD 0) ∈ l ∧ ∀ x ∈ l, l.foldr min (l.headD 0) ≤ x := by
  have key : ∀ (l : List ℝ) (a : ℝ), (l.foldr min a = a ∨ l.foldr min a ∈ l) ∧
      ∀ x ∈ l, l.foldr min a ≤ x := by
    intro l a
    induction l with
    | nil => simp
    | cons b l ih =>
      obtain ⟨h1, h3⟩ := ih
      simp only [List.foldr_cons]
      refine ⟨?_, ?_⟩
      · rcases min_choice b (l.foldr min a) with e | e
        · right; rw [e]; simp
        · rw [e]
          rcases h1 with h1 | h1
          · left; exact h1
          · right; exact List.mem_cons_of_mem _ h1
      · intro x hx
        rcases List.mem_cons.1 hx with rfl | hx
        · exact min_le_left _ _
        · exact (min_le_right _ _).trans (h3 x hx)
  cases l with
  | nil => exact absurd rfl h
  | cons b l =>
    obtain ⟨h1, h3⟩ := key (b :: l) b
    refine ⟨?_, h3⟩
    rcases h1 with h1 | h1
    · simp only [List.headD_cons]; rw [h1]; simp
    · exact h1

theorem extent_perm {ps ps' : List (Particle ℝ)} (h : ps.Perm ps') (i : Fin 3) :
    extent ps i = extent ps' i := by
  by_cases hne : ps = []
  · subst hne; rw [List.nil_perm.1 h]
  · have hl := h.map fun p => p.pos i
    have hne' : ps' ≠ [] := by rintro rfl; exact hne (List.perm_nil.1 h)
    unfold extent
    set l := ps.map fun p => p.pos i
    set l' := ps'.map fun p => p.pos i
    have n1 : l ≠ [] := by simpa [l] using hne
    have n2 : l' ≠ [] := by simpa [l'] using hne'
    obtain ⟨a1, a2⟩ := foldr_max_spec l n1
    obtain ⟨b1, b2⟩ := foldr_max_spec l' n2
    obtain ⟨c1, c2⟩ := foldr_min_spec l n1
    obtain ⟨d1, d2⟩ := foldr_min_spec l' n2
    rw [le_antisymm (b2 _ (hl.subset a1)) (a2 _ (hl.symm.subset b1)),
      le_antisymm (c2 _ (hl.symm.subset d1)) (d2 _ (hl.subset c1))]

theorem epsilonAbout_perm (c : Vec ℝ) (a : ℝ) {ps ps' : List (Particle ℝ)} (h : ps.Perm ps') :
    epsilonAbout c a ps = epsilonAbout c a ps' := by
  have hM : (ps.map fun p => p.mass).sum = (ps'.map fun p => p.mass).sum := (h.map _).sum_eq
  have hmom : ∀ i j, moment c a ps i j = moment c a ps' i j := by
    intro i j; unfold moment; rw [(h.map _).sum_eq, hM]
  unfold epsilonAbout
  rw [hM]
  simp only [hmom]

/-- C43. The ellipticity does not depend on the order of the particles, for non-periodic positions
(`L_BOX = 0`) and for objects of up to fifty particles (all of which are averaged to find the periodic
image to be used). -/
theorem C43_order (choose : Nat → List Nat) (fuel : Nat) (mode : Bool) (L angle : ℝ)
    (ps ps' : List (Particle ℝ)) (h : ps.Perm ps') (hM : totalMass ps ≠ 0)
    (hL : L = 0 ∨ (choose ps.length).Perm (List.range ps.length)) :
    epsilon choose fuel mode L angle ps = epsilon choose fuel mode L angle ps' := by
  unfold epsilon
  simp only
  rw [unwrapped_eq, unwrapped_eq, ← h.length_eq]
  have hperm : (ps.map fun p => (⟨if L ≠ 0 then fun i => unwrapAxis L (reference (choose ps.length)
        (ps.map fun p => p.pos) i) (p.pos i) else p.pos, p.mass⟩ : Particle ℝ)).Perm
      (ps'.map fun p => (⟨if L ≠ 0 then fun i => unwrapAxis L (reference (choose ps.length)
        (ps'.map fun p => p.pos) i) (p.pos i) else p.pos, p.mass⟩ : Particle ℝ)) := by
    rcases hL with rfl | hc
    · simp only [ne_eq, not_true_eq_false, if_false]
      exact h.map _
    · rw [reference_perm (choose ps.length) (choose ps.length) _ _ (h.map fun p => p.pos)
        (by rw [List.length_map]; exact hc) (by rw [List.length_map, ← h.length_eq]; exact hc)]
      exact h.map _
  generalize hA : (ps.map fun p => (⟨if L ≠ 0 then fun i => unwrapAxis L (reference (choose ps.length)
        (ps.map fun p => p.pos) i) (p.pos i) else p.pos, p.mass⟩ : Particle ℝ)) = A at hperm
  generalize (ps'.map fun p => (⟨if L ≠ 0 then fun i => unwrapAxis L (reference (choose ps.length)
        (ps'.map fun p => p.pos) i) (p.pos i) else p.pos, p.mass⟩ : Particle ℝ)) = B at hperm
  have hMA : totalMass A = totalMass ps := by
    rw [← hA]; unfold totalMass; rw [List.map_map]; rfl
  have hMB : totalMass B = totalMass ps := by
    rw [← hMA]; exact (hperm.map fun p : Particle ℝ => p.mass).sum_eq.symm
  cases mode
  · simp only [Bool.false_eq_true, if_false]
    rw [calcCoM_eq _ A (by rw [hMA]; exact hM), calcCoM_eq _ B (by rw [hMB]; exact hM),
      weightedMean_perm hperm, epsilonAbout_perm _ _ hperm]
  · simp only [if_true]
    rw [extent_perm hperm, extent_perm hperm, extent_perm hperm, calcMode_perm _ _ _ hperm]
    congr 1
    funext c
    exact epsilonAbout_perm _ _ hperm

/-- Change of the mass unit. -/
def scaleMass (k : ℝ) (ps : List (Particle ℝ)) : List (Particle ℝ) := ps.map fun p => ⟨p.pos, k * p.mass⟩

theorem scaleMass_mean (k : ℝ) (hk : k ≠ 0) (ps : List (Particle ℝ)) :
    weightedMean (scaleMass k ps) = weightedMean ps := by
  funext i
  unfold weightedMean totalMass scaleMass
  simp only [List.map_map, Function.comp_def, mul_assoc]
  rw [sum_map_mul_left', sum_map_mul_left', mul_div_mul_left _ _ hk]

theorem scaleMass_mode (k : ℝ) (hk : k ≠ 0) (fuel : Nat) (ps : List (Particle ℝ)) (rad : ℝ) :
    calcMode fuel (scaleMass k ps) rad = calcMode fuel ps rad := by
  induction fuel generalizing ps rad with
  | zero => rfl
  | succ n ih =>
    rw [calcMode_succ, calcMode_succ, scaleMass_mean k hk]
    have e : (scaleMass k ps).filter (fun p => decide (Periodic.dist p.pos (weightedMean ps) < rad)) =
        scaleMass k (ps.filter fun p => decide (Periodic.dist p.pos (weightedMean ps) < rad)) := by
      unfold scaleMass; rw [List.filter_map]; rfl
    rw [e, ih]
    simp [scaleMass]

theorem scaleMass_epsilonAbout (k : ℝ) (hk : k ≠ 0) (c : Vec ℝ) (a : ℝ) (ps : List (Particle ℝ)) :
    epsilonAbout c a (scaleMass k ps) = epsilonAbout c a ps := by
  have hM : ((scaleMass k ps).map fun p => p.mass).sum = k * (ps.map fun p => p.mass).sum := by
    unfold scaleMass; simp only [List.map_map, Function.comp_def]; rw [sum_map_mul_left']
  have hmom : ∀ i j, moment c a (scaleMass k ps) i j = moment c a ps i j := by
    intro i j
    unfold moment
    rw [hM]
    unfold scaleMass
    simp only [List.map_map, Function.comp_def, mul_assoc]
    rw [sum_map_mul_left', mul_div_mul_left _ _ hk]
  unfold epsilonAbout
  rw [hM]
  simp only [hmom, mul_eq_zero, hk, false_or]

/-- C43. The ellipticity does not depend on the mass unit. -/
theorem C43_mass_unit (choose : Nat → List Nat) (fuel : Nat) (mode : Bool) (L angle k : ℝ) (hk : k ≠ 0)
    (ps : List (Particle ℝ)) (hM : totalMass ps ≠ 0) :
    epsilon choose fuel mode L angle (scaleMass k ps) = epsilon choose fuel mode L angle ps := by
  unfold epsilon
  simp only
  rw [unwrapped_eq, unwrapped_eq]
  have hl : (scaleMass k ps).length = ps.length := by simp [scaleMass]
  have hp : ((scaleMass k ps).map fun p => p.pos) = ps.map fun p => p.pos := by
    simp [scaleMass, Function.comp_def]
  rw [hl, hp]
  set f : Particle ℝ → Particle ℝ := fun p => ⟨if L ≠ 0 then fun i => unwrapAxis L (reference
    (choose ps.length) (ps.map fun p => p.pos) i) (p.pos i) else p.pos, p.mass⟩ with hf
  have e : (scaleMass k ps).map f = scaleMass k (ps.map f) := by
    unfold scaleMass; simp only [List.map_map]; rfl
  rw [e]
  have hMA : totalMass (ps.map f) = totalMass ps := by
    unfold totalMass; rw [List.map_map]; rfl
  have hMB : totalMass (scaleMass k (ps.map f)) ≠ 0 := by
    have : totalMass (scaleMass k (ps.map f)) = k * totalMass (ps.map f) := by
      unfold totalMass scaleMass; simp only [List.map_map, Function.comp_def]; rw [← sum_map_mul_left']
    rw [this, hMA]; exact mul_ne_zero hk hM
  have hext : ∀ i, extent (scaleMass k (ps.map f)) i = extent (ps.map f) i := by
    intro i; unfold extent scaleMass; simp only [List.map_map, Function.comp_def]
  cases mode
  · simp only [Bool.false_eq_true, if_false]
    rw [calcCoM_eq _ _ hMB, calcCoM_eq _ (ps.map f) (by rw [hMA]; exact hM), scaleMass_mean k hk,
      scaleMass_epsilonAbout k hk]
  · simp only [if_true, hext]
    rw [scaleMass_mode k hk]
    congr 1
    funext c
    exact scaleMass_epsilonAbout k hk _ _ _

/-- Particles with positive total mass. -/
example : totalMass [⟨![1, 0, 0], 1⟩, ⟨![-1, 0, (0 : ℝ)], 2⟩] ≠ 0 ∧
    ([0, 1] : List Nat).Perm (List.range 2) := by
  constructor
  · norm_num [totalMass]
  · decide

end Verif.Stats
