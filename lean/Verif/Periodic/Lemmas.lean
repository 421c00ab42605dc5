import Verif.Periodic.Model
import Mathlib.Tactic.NormNum
import Mathlib.Algebra.Order.Archimedean.Basic
import Mathlib.Tactic.Positivity

/-! # Lemmas about periodic boundaries, centres and modes -/

set_option linter.unusedSectionVars false

namespace Verif.Periodic

variable {K : Type} [Field K] [LinearOrder K] [IsStrictOrderedRing K]

theorem unwrapAxis_cases (L ref x : K) (hL : 0 < L) :
    (x - ref > L / 2 ∧ unwrapAxis L ref x = x - L) ∨
    (x - ref < -L / 2 ∧ unwrapAxis L ref x = x + L) ∨
    (-L / 2 ≤ x - ref ∧ x - ref ≤ L / 2 ∧ unwrapAxis L ref x = x) := by
  unfold unwrapAxis
  by_cases h1 : x - ref > L / 2
  · left
    have h2 : ¬ x - ref < -L / 2 := by linarith
    simp only [h1, h2, if_true, if_false, true_and]
  · by_cases h2 : x - ref < -L / 2
    · right; left
      simp only [h1, h2, if_true, if_false, true_and]
    · right; right
      simp only [h1, h2, if_false, and_true]
      exact ⟨not_lt.1 h2, not_lt.1 h1⟩

theorem unwrapAxis_within (L ref x : K) (hL : 0 < L) (hx : |x - ref| ≤ 3 * L / 2) :
    |unwrapAxis L ref x - ref| ≤ L / 2 := by
  rw [abs_le] at hx ⊢
  rcases unwrapAxis_cases L ref x hL with ⟨h, e⟩ | ⟨h, e⟩ | ⟨h, h', e⟩ <;> rw [e] <;>
    constructor <;> linarith [hx.1, hx.2]

/-- The average of some numbers in `[0, L)` is in `[0, L)`. -/
theorem average_mem (l : List K) (L : K) (hne : l ≠ []) (h : ∀ x ∈ l, 0 ≤ x ∧ x < L) :
    0 ≤ l.sum / (l.length : K) ∧ l.sum / (l.length : K) < L := by
  have hpos : (0 : K) < l.length := by
    have : 0 < l.length := List.length_pos_iff.2 hne
    exact_mod_cast this
  refine ⟨div_nonneg ?_ hpos.le, ?_⟩
  · have := sum_map_nonneg' l id (fun x hx => (h x hx).1)
    simpa using this
  · rw [div_lt_iff₀ hpos]
    clear hpos
    induction l with
    | nil => exact absurd rfl hne
    | cons a l ih =>
      simp only [List.sum_cons, List.length_cons, Nat.cast_add, Nat.cast_one]
      have ha := (h a (by simp)).2
      by_cases hl : l = []
      · subst hl; simpa using ha
      · have := ih hl fun x hx => h x (by simp [hx])
        rw [mul_add, mul_one]; linarith

theorem reference_mem (choose : List Nat) (xyz : List (Vec K)) (L : K)
    (hc : ∃ j ∈ choose, j < xyz.length) (h : ∀ p ∈ xyz, ∀ i, 0 ≤ p i ∧ p i < L) (i : Fin 3) :
    0 ≤ reference choose xyz i ∧ reference choose xyz i < L := by
  unfold reference
  have hlen : (choose.filterMap fun j => xyz[j]?).length =
      ((choose.filterMap fun j => xyz[j]?).map fun p => p i).length := by simp
  rw [hlen]
  apply average_mem
  · obtain ⟨j, hj, hlt⟩ := hc
    intro hn
    rw [List.map_eq_nil_iff, List.filterMap_eq_nil_iff] at hn
    have := hn j hj
    rw [List.getElem?_eq_getElem hlt] at this
    cases this
  · intro x hx
    obtain ⟨p, hp, rfl⟩ := List.mem_map.1 hx
    obtain ⟨j, -, hj⟩ := List.mem_filterMap.1 hp
    exact h p (List.mem_of_getElem? hj) i

theorem calcCoM_eq (choose : List Nat) (ps : List (Particle K)) (hM : totalMass ps ≠ 0) :
    calcCoM choose ps = weightedMean ps := by
  funext i
  unfold calcCoM weightedMean
  rw [show (ps.map fun p => p.mass).sum = totalMass ps from rfl, sum_map_div']
  set r := reference choose (ps.map fun p => p.pos) i with hr
  have : (ps.map fun p => p.mass * (p.pos i - r)).sum =
      (ps.map fun p => p.mass * p.pos i).sum + -r * totalMass ps := by
    unfold totalMass
    rw [← sum_map_mul_left', ← sum_map_add']
    congr 1
    apply List.map_congr_left
    intro p _; ring
  rw [this]
  field_simp
  ring

theorem foldl_add_eq {α : Type} (l : List α) (f : α → K) (a : K) :
    l.foldl (fun acc p => acc + f p) a = a + (l.map f).sum := by
  induction l generalizing a with
  | nil => simp
  | cons x l ih => simp [ih]; ring

theorem cyCalcCoM_eq (ps : List (Particle K)) : cyCalcCoM ps = weightedMean ps := by
  funext i
  unfold cyCalcCoM weightedMean
  rw [foldl_add_eq ps (fun p => p.mass) 0, zero_add]
  rw [show (ps.map fun p => p.mass).sum = totalMass ps from rfl, ← sum_map_div']
  have : ∀ (c : Vec K), ps.foldl (fun com p i => com i + p.mass * p.pos i / totalMass ps) c i =
      c i + (ps.map fun p => p.mass * p.pos i / totalMass ps).sum := by
    generalize totalMass ps = M
    induction ps with
    | nil => simp
    | cons p ps ih => intro c; simp [ih]; ring
  rw [this]; simp

/-! ## The loop of the Cython routine -/

theorem cyReflect_self (L : K) (hL : 0 < L) (r : Vec K) : cyReflect L r r = r := by
  have h : ¬ (0 : K) > L / 2 := by have := half_pos hL; exact not_lt.2 this.le
  unfold cyReflect
  simp [h]

theorem cyLoop_eq (L : K) (r : Vec K) (pre post : List (Vec K)) (h : (pre ++ post)[0]? = some r)
    (hpre : pre = [] → cyReflect L r r = r) :
    cyLoop L (pre ++ post) pre.length post.length = pre ++ post.map (cyReflect L r) := by
  induction post generalizing pre with
  | nil => simp [cyLoop]
  | cons p post ih =>
    simp only [List.length_cons, cyLoop, h]
    have h1 : (pre ++ p :: post)[pre.length]? = some p := by simp
    simp only [h1]
    have h2 : (pre ++ p :: post).set pre.length (cyReflect L r p) =
        (pre ++ [cyReflect L r p]) ++ post := by simp
    have h3 : pre.length + 1 = (pre ++ [cyReflect L r p]).length := by simp
    rw [h2, h3, ih]
    · simp
    · cases pre with
      | nil =>
        simp at h; subst h
        simp [hpre rfl]
      | cons a pre => simpa using h
    · simp

theorem cyRespect_eq (L : K) (hL : 0 < L) (r : Vec K) (rest : List (Vec K)) :
    cyRespectPBCNoRef (r :: rest) L = (r :: rest).map (cyReflect L r) := by
  unfold cyRespectPBCNoRef
  rw [if_neg hL.ne']
  have := cyLoop_eq L r [] (r :: rest) rfl fun _ => cyReflect_self L hL r
  simpa using this

/-! ## Mode -/

/-- Centre of mass as computed in `calcMode`. -/
theorem mode_com_eq (ps : List (Particle ℝ)) :
    (fun i => (ps.map fun p => p.pos i * p.mass).sum / (ps.map fun p => p.mass).sum) =
      weightedMean ps := by
  funext i
  unfold weightedMean totalMass
  congr 2
  apply List.map_congr_left
  intro p _; ring

theorem calcMode_succ (fuel : Nat) (ps : List (Particle ℝ)) (rad : ℝ) :
    calcMode (fuel + 1) ps rad =
      if (ps.filter fun p => decide (dist p.pos (weightedMean ps) < rad)).length < 5 then
        some (weightedMean ps)
      else calcMode fuel (ps.filter fun p => decide (dist p.pos (weightedMean ps) < rad))
        (rad * 0.83) := by
  rw [calcMode]
  simp only [mode_com_eq]

theorem dist_self (a : Vec ℝ) : dist a a = 0 := by simp [dist]

theorem dist_pos {a b : Vec ℝ} (h : a ≠ b) : 0 < dist a b := by
  unfold dist
  apply Real.sqrt_pos.2
  by_contra hc
  have h0 := sq_nonneg (a 0 - b 0)
  have h1 := sq_nonneg (a 1 - b 1)
  have h2 := sq_nonneg (a 2 - b 2)
  have e0 : (a 0 - b 0) ^ 2 = 0 := by linarith
  have e1 : (a 1 - b 1) ^ 2 = 0 := by linarith
  have e2 : (a 2 - b 2) ^ 2 = 0 := by linarith
  apply h
  funext i
  have := pow_eq_zero_iff (two_ne_zero) |>.1 e0
  have := pow_eq_zero_iff (two_ne_zero) |>.1 e1
  have := pow_eq_zero_iff (two_ne_zero) |>.1 e2
  fin_cases i <;> simp <;> linarith

/-- The result is a centre of mass of a sublist of the particles. -/
theorem calcMode_is_mean (fuel : Nat) (ps : List (Particle ℝ)) (rad : ℝ) (v : Vec ℝ)
    (h : calcMode fuel ps rad = some v) :
    ∃ sub, sub.Sublist ps ∧ (sub = [] → ps = []) ∧ v = weightedMean sub := by
  induction fuel generalizing ps rad with
  | zero => simp [calcMode] at h
  | succ n ih =>
    rw [calcMode_succ] at h
    split at h
    · exact ⟨ps, List.Sublist.refl _, id, (Option.some.inj h).symm⟩
    · rename_i hlen
      obtain ⟨sub, hs, hne, hv⟩ := ih _ _ h
      refine ⟨sub, hs.trans List.filter_sublist, ?_, hv⟩
      intro h0
      rw [hne h0] at hlen
      simp at hlen

end Verif.Periodic
