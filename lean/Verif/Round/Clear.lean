import Verif.Round.ShellProps
import Verif.Round.WholeShape

/-!
# Rounding: which particles are counted in a shell (C143, C145)
-/

namespace Verif.Round

open Verif (Vec)

variable (R : Rounding)

/-- The distance of two points in exact arithmetic. -/
noncomputable def trueDistance (c x : Vec ℝ) : ℝ := √((c 0 - x 0) ^ 2 + (c 1 - x 1) ^ 2 + (c 2 - x 2) ^ 2)

theorem trueDistance_sq (c x : Vec ℝ) :
    trueDistance c x ^ 2 = (c 0 - x 0) ^ 2 + (c 1 - x 1) ^ 2 + (c 2 - x 2) ^ 2 :=
  Real.sq_sqrt (by positivity)

theorem distSq_rel (c x : Vec ℝ) : Rel R 5 (distSq R c x) (trueDistance c x ^ 2) := by
  have hc (i : Fin 3) : Rel R 3 (R.pow (R.sub (c i) (x i)) 2) ((c i - x i) ^ 2) :=
    rel_round ((rel_rnd R (c i - x i)).pow 2)
  rw [trueDistance_sq]
  have h1 : Rel R 4 (R.add (R.pow (R.sub (c 0) (x 0)) 2) (R.pow (R.sub (c 1) (x 1)) 2)) ((c 0 - x 0) ^ 2 + (c 1 - x 1) ^ 2) :=
    rel_round ((hc 0).add (hc 1) (sq_nonneg _) (sq_nonneg _))
  exact rel_round (h1.add ((hc 2).mono (by norm_num)) (by positivity) (sq_nonneg _))

theorem edge_rel (e r200 : ℝ) : Rel R 3 (R.pow (R.mul e r200) 2) ((e * r200) ^ 2) :=
  rel_round ((rel_rnd R (e * r200)).pow 2)

theorem bernoulli4 : 1 - 4 * R.u ≤ (1 - R.u) ^ 4 := by
  have := one_add_mul_le_pow (a := -R.u) (by have := R.u_lt; linarith) 4
  push_cast at this
  linarith [this, show (1 + -R.u) ^ 4 = (1 - R.u) ^ 4 by ring]

/-- If a quantity known to five roundings is clearly below one known to three, then also computed, and conversely. -/
theorem clear_lt {d b D E : ℝ} {k l : Nat} (hkl : k + l = 8) (hd : Rel R k d (D ^ 2)) (hb : Rel R l b (E ^ 2)) (hD : 0 ≤ D)
    (hE : 0 ≤ E) : (D < (1 - 4 * R.u) * E → d < b) ∧ (D ≤ (1 - 4 * R.u) * E → d ≤ b) := by
  have hq := base_pos R
  have hw : w R * (1 - R.u) = 1 := inv_mul_cancel₀ hq.ne'
  have hB := mul_le_mul_of_nonneg_right (bernoulli4 R) hE
  have up : d ≤ w R ^ k * D ^ 2 := hd.le (sq_nonneg D)
  have lo : (1 - R.u) ^ l * E ^ 2 ≤ b := by
    have := mul_le_mul_of_nonneg_left (hb.ge (sq_nonneg E)) (pow_pos hq l).le
    rwa [← mul_assoc, ← mul_pow, mul_comm (1 - R.u) (w R), hw, one_pow, one_mul] at this
  have mid : w R ^ k * ((1 - R.u) ^ 4 * E) ^ 2 = (1 - R.u) ^ l * E ^ 2 := by
    have : ((1 - R.u) ^ 4) ^ 2 = (1 - R.u) ^ k * (1 - R.u) ^ l := by rw [← pow_mul, ← pow_add, hkl]
    rw [mul_pow, this, ← mul_assoc, ← mul_assoc, ← mul_pow, hw, one_pow, one_mul]
  have wp := pow_pos (w_pos R) k
  constructor
  · intro h
    have := mul_lt_mul_of_pos_left (pow_lt_pow_left₀ (h.trans_le hB) hD two_ne_zero) wp
    linarith
  · intro h
    have := mul_le_mul_of_nonneg_left (pow_le_pow_left₀ hD (h.trans hB) 2) wp.le
    linarith

theorem trueDistance_nonneg (c x : Vec ℝ) : 0 ≤ trueDistance c x := Real.sqrt_nonneg _

/-- C143. A particle is counted in the shell its distance is in: always if it is away from the edges by more than four rounding
errors, and never if it is outside by more than that. -/
theorem C143_right_shell (r200 e e' : ℝ) (hr : 0 ≤ r200) (he : 0 ≤ e) (he' : 0 ≤ e') (c x : Vec ℝ) :
    (e * r200 ≤ (1 - 4 * R.u) * √((c 0 - x 0) ^ 2 + (c 1 - x 1) ^ 2 + (c 2 - x 2) ^ 2) →
      √((c 0 - x 0) ^ 2 + (c 1 - x 1) ^ 2 + (c 2 - x 2) ^ 2) < (1 - 4 * R.u) * (e' * r200) →
      InShell R r200 (distSq R c x) e e') ∧
    (InShell R r200 (distSq R c x) e e' →
      (1 - 4 * R.u) * (e * r200) ≤ √((c 0 - x 0) ^ 2 + (c 1 - x 1) ^ 2 + (c 2 - x 2) ^ 2) ∧
      (1 - 4 * R.u) * √((c 0 - x 0) ^ 2 + (c 1 - x 1) ^ 2 + (c 2 - x 2) ^ 2) < e' * r200) := by
  have hd := distSq_rel R c x
  have hn := trueDistance_nonneg c x
  refine ⟨fun h1 h2 => ⟨?_, ?_⟩, fun h => ⟨?_, ?_⟩⟩
  · exact (clear_lt R rfl hd (edge_rel R e' r200) hn (mul_nonneg he' hr)).1 h2
  · exact (clear_lt R rfl (edge_rel R e r200) hd (mul_nonneg he hr) hn).2 h1
  · by_contra hc
    exact absurd ((clear_lt R rfl hd (edge_rel R e r200) hn (mul_nonneg he hr)).1 (not_le.1 hc)) (not_lt.2 h.2)
  · by_contra hc
    exact absurd ((clear_lt R rfl (edge_rel R e' r200) hd (mul_nonneg he' hr) hn).2 (not_lt.1 hc)) (not_le.2 h.1)

/-- C145. The same for the particles closer than a radius. -/
theorem C145_right_particles (r200 r : ℝ) (hr : 0 ≤ r200) (h0 : 0 ≤ r) (c x : Vec ℝ) :
    (√((c 0 - x 0) ^ 2 + (c 1 - x 1) ^ 2 + (c 2 - x 2) ^ 2) < (1 - 4 * R.u) * (r * r200) →
      distSq R c x < R.pow (R.mul r r200) 2) ∧
    (distSq R c x < R.pow (R.mul r r200) 2 →
      (1 - 4 * R.u) * √((c 0 - x 0) ^ 2 + (c 1 - x 1) ^ 2 + (c 2 - x 2) ^ 2) < r * r200) := by
  have hd := distSq_rel R c x
  have hn := trueDistance_nonneg c x
  refine ⟨fun h => (clear_lt R rfl hd (edge_rel R r r200) hn (mul_nonneg h0 hr)).1 h, fun h => ?_⟩
  by_contra hc
  exact absurd ((clear_lt R rfl (edge_rel R r r200) hd (mul_nonneg h0 hr) hn).2 (not_lt.1 hc)) (not_le.2 h)

/-- C143. The edges between the shells are the middles of neighbouring radii up to four rounding errors; the last edge is the last
radius. -/
theorem C143_edge_values (radii : List ℝ) (hpos : ∀ r ∈ radii, 0 ≤ r) (b : Nat) (hb : b < radii.length) :
    (edges R radii).length = radii.length + 1 ∧
    ((hl : b + 1 < radii.length) → 2 * R.u ≤ 1 / 2 →
      ∃ e, (edges R radii)[b + 1]? = some e ∧ |e - (radii[b] + radii[b + 1]) / 2| ≤ 4 * R.u * ((radii[b] + radii[b + 1]) / 2)) ∧
    (b + 1 = radii.length → (edges R radii)[b + 1]? = some radii[b]) := by
  have hz : (List.zipWith (fun a b => R.div (R.add a b) 2) radii radii.tail).length = radii.length - 1 := by simp
  have hne : radii ≠ [] := by rintro rfl; simp at hb
  refine ⟨?_, fun hl hu => ?_, fun hl => ?_⟩
  · simp only [edges, List.length_cons, List.length_append, hz, List.getLast?_eq_some_getLast hne, Option.toList_some,
      List.length_nil]
    omega
  · have h1 : (edges R radii)[b + 1]? = some (R.div (R.add radii[b] radii[b + 1]) 2) := by
      rw [edges, List.getElem?_cons_succ, List.getElem?_append_left (by omega), List.getElem?_eq_getElem (by omega)]
      simp
    refine ⟨_, h1, ?_⟩
    have h2 : Rel R 2 (R.div (R.add radii[b] radii[b + 1]) 2) ((radii[b] + radii[b + 1]) / 2) :=
      rel_round ((rel_rnd R (radii[b] + radii[b + 1])).div (Rel.refl R 0 2))
    have h3 := h2.err' (by push_cast; exact hu)
    rw [abs_of_nonneg (a := (radii[b] + radii[b + 1]) / 2) (div_nonneg (add_nonneg (hpos _ (List.getElem_mem _))
      (hpos _ (List.getElem_mem _))) zero_le_two)] at h3
    push_cast at h3
    linarith
  · have : b = radii.length - 1 := by omega
    subst this
    rw [edges, List.getElem?_cons_succ, List.getElem?_append_right (by omega), hz, Nat.sub_self,
      List.getLast?_eq_some_getLast hne]
    simp [List.getLast_eq_getElem]

theorem float64_u_small : float64.u ≤ 1 / 1000 := by
  rw [show float64.u = (1 / 2) ^ 53 from rfl]
  norm_num

/-- In double precision, a particle at distance 3 (coordinates 1, 2, 2) is counted between 2 and 4, and not between 4 and 5. -/
example : InShell float64 1 (distSq float64 ![0, 0, 0] ![1, 2, 2]) 2 4 ∧
    ¬InShell float64 1 (distSq float64 ![0, 0, 0] ![1, 2, 2]) 4 5 := by
  have hs : √(((![0, 0, 0] : Vec ℝ) 0 - (![1, 2, 2] : Vec ℝ) 0) ^ 2 + ((![0, 0, 0] : Vec ℝ) 1 - (![1, 2, 2] : Vec ℝ) 1) ^ 2 +
      ((![0, 0, 0] : Vec ℝ) 2 - (![1, 2, 2] : Vec ℝ) 2) ^ 2) = 3 := by
    rw [show (((![0, 0, 0] : Vec ℝ) 0 - (![1, 2, 2] : Vec ℝ) 0) ^ 2 + ((![0, 0, 0] : Vec ℝ) 1 - (![1, 2, 2] : Vec ℝ) 1) ^ 2 +
      ((![0, 0, 0] : Vec ℝ) 2 - (![1, 2, 2] : Vec ℝ) 2) ^ 2) = 3 ^ 2 from
      show ((0 : ℝ) - 1) ^ 2 + (0 - 2) ^ 2 + (0 - 2) ^ 2 = 3 ^ 2 by norm_num]
    exact Real.sqrt_sq (by norm_num)
  have hu := float64_u_small
  constructor
  · refine (C143_right_shell float64 1 2 4 (by norm_num) (by norm_num) (by norm_num) ![0, 0, 0] ![1, 2, 2]).1 ?_ ?_ <;>
      rw [hs] <;> linarith
  · intro h
    have := ((C143_right_shell float64 1 4 5 (by norm_num) (by norm_num) (by norm_num) ![0, 0, 0] ![1, 2, 2]).2 h).1
    rw [hs] at this
    linarith

/-- That particle is within 4 times R200. -/
example : distSq float64 ![0, 0, 0] ![1, 2, 2] < float64.pow (float64.mul 4 1) 2 := by
  refine (C145_right_particles float64 1 4 (by norm_num) (by norm_num) ![0, 0, 0] ![1, 2, 2]).1 ?_
  rw [show √(((![0, 0, 0] : Vec ℝ) 0 - (![1, 2, 2] : Vec ℝ) 0) ^ 2 + ((![0, 0, 0] : Vec ℝ) 1 - (![1, 2, 2] : Vec ℝ) 1) ^ 2 +
      ((![0, 0, 0] : Vec ℝ) 2 - (![1, 2, 2] : Vec ℝ) 2) ^ 2) = 3 from by
    rw [show (((![0, 0, 0] : Vec ℝ) 0 - (![1, 2, 2] : Vec ℝ) 0) ^ 2 + ((![0, 0, 0] : Vec ℝ) 1 - (![1, 2, 2] : Vec ℝ) 1) ^ 2 +
      ((![0, 0, 0] : Vec ℝ) 2 - (![1, 2, 2] : Vec ℝ) 2) ^ 2) = 3 ^ 2 from
      show ((0 : ℝ) - 1) ^ 2 + (0 - 2) ^ 2 + (0 - 2) ^ 2 = 3 ^ 2 by norm_num]
    exact Real.sqrt_sq (by norm_num)]
  have := float64_u_small
  linarith

/-- The first of two edges of the radii 1, 3 and 4 in double precision is 2 up to rounding. -/
example : ∃ e, (edges float64 [1, 3, 4])[1]? = some e ∧ |e - (1 + 3) / 2| ≤ 4 * float64.u * ((1 + 3) / 2) :=
  (C143_edge_values float64 [1, 3, 4] (by intro r hr; simp at hr; rcases hr with rfl | rfl | rfl <;> norm_num) 0 (by simp)).2.1
    (by simp) (by have := float64_u_small; linarith)

end Verif.Round
