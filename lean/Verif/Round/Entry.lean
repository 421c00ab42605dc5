import Verif.Round.Clear
import Verif.Api.Spec

/-!
# Rounding: entries of density profiles against exact shells (C143)
-/

namespace Verif.Round

open Verif (Vec)
open Verif.Api (lowerEdge upperEdge)

variable (R : Rounding)

theorem bernoulli (m : Nat) : 1 - m * R.u ≤ (1 - R.u) ^ m := by
  have := one_add_mul_le_pow (a := -R.u) (by have := R.u_lt; linarith) m
  have e : (1 + -R.u) ^ m = (1 - R.u) ^ m := by rw [← sub_eq_add_neg]
  linarith

theorem clear_le {d b D E : ℝ} {k l m : Nat} (hkl : k + l = 2 * m) (hd : Rel R k d (D ^ 2)) (hb : Rel R l b (E ^ 2)) (hD : 0 ≤ D)
    (hE : 0 ≤ E) (h : D < (1 - m * R.u) * E) : d < b := by
  have hq := base_pos R
  have hw : w R * (1 - R.u) = 1 := inv_mul_cancel₀ hq.ne'
  have hB := mul_le_mul_of_nonneg_right (bernoulli R m) hE
  have up : d ≤ w R ^ k * D ^ 2 := hd.le (sq_nonneg D)
  have lo : (1 - R.u) ^ l * E ^ 2 ≤ b := by
    have := mul_le_mul_of_nonneg_left (hb.ge (sq_nonneg E)) (pow_pos hq l).le
    rwa [← mul_assoc, ← mul_pow, mul_comm (1 - R.u) (w R), hw, one_pow, one_mul] at this
  have mid : w R ^ k * ((1 - R.u) ^ m * E) ^ 2 = (1 - R.u) ^ l * E ^ 2 := by
    have : ((1 - R.u) ^ m) ^ 2 = (1 - R.u) ^ k * (1 - R.u) ^ l := by rw [← pow_mul, ← pow_add, hkl, mul_comm]
    rw [mul_pow, this, ← mul_assoc, ← mul_assoc, ← mul_pow, hw, one_pow, one_mul]
  have := mul_lt_mul_of_pos_left (pow_lt_pow_left₀ (h.trans_le hB) hD two_ne_zero) (pow_pos (w_pos R) k)
  linarith

/-- Lower and upper edge of a bin, computed and exact. -/
theorem edges_rel (radii : List ℝ) (b : Nat) (hb : b < radii.length) :
    ∃ e e', (edges R radii)[b]? = some e ∧ (edges R radii)[b + 1]? = some e' ∧
      Rel R 2 e (lowerEdge radii b) ∧ Rel R 2 e' (upperEdge radii b) := by
  have hz : (List.zipWith (fun a b => R.div (R.add a b) 2) radii radii.tail).length = radii.length - 1 := by simp
  have hne : radii ≠ [] := by rintro rfl; simp at hb
  have hmid : ∀ b (hl : b + 1 < radii.length), (edges R radii)[b + 1]? = some (R.div (R.add radii[b] radii[b + 1]) 2) ∧
      Rel R 2 (R.div (R.add radii[b] radii[b + 1]) 2) ((radii[b] + radii[b + 1]) / 2) := by
    intro b hl
    refine ⟨?_, rel_round ((rel_rnd R (radii[b] + radii[b + 1])).div (Rel.refl R 0 2))⟩
    rw [edges, List.getElem?_cons_succ, List.getElem?_append_left (by omega), List.getElem?_eq_getElem (by omega)]
    simp
  have lower : ∃ e, (edges R radii)[b]? = some e ∧ Rel R 2 e (lowerEdge radii b) := by
    rcases b with _ | b
    · refine ⟨10⁻¹ ^ 8, rfl, ?_⟩
      rw [lowerEdge, if_pos rfl, show (1e-8 : ℝ) = 10⁻¹ ^ 8 by norm_num]
      exact Rel.refl R 2 _
    · obtain ⟨h1, h2⟩ := hmid b hb
      refine ⟨_, h1, ?_⟩
      rw [lowerEdge, if_neg (Nat.succ_ne_zero b), Nat.add_sub_cancel, List.getElem?_eq_getElem hb, List.getElem?_eq_getElem (by omega)]
      exact h2
  obtain ⟨e, h1, h2⟩ := lower
  by_cases hl : b + 1 = radii.length
  · refine ⟨e, radii[b], h1, ?_, h2, ?_⟩
    · have : b = radii.length - 1 := by omega
      subst this
      rw [edges, List.getElem?_cons_succ, List.getElem?_append_right (by omega), hz, Nat.sub_self,
        List.getLast?_eq_some_getLast hne]
      simp [List.getLast_eq_getElem]
    · rw [upperEdge, if_pos hl, List.getElem?_eq_getElem hb]
      exact Rel.refl R 2 _
  · obtain ⟨h3, h4⟩ := hmid b (by omega)
    refine ⟨e, _, h1, h3, h2, ?_⟩
    rw [upperEdge, if_neg hl, List.getElem?_eq_getElem hb, List.getElem?_eq_getElem (by omega)]
    exact h4

open Classical in
/-- Specification: mass of the particles the distance of which from `c` is at least `a` and less than `a'`, in exact arithmetic. -/
noncomputable def exactShellMass (a a' : ℝ) (c : Vec ℝ) (ps : List (Vec ℝ × ℝ)) : ℝ :=
  ((ps.filter fun p => a ≤ √((c 0 - p.1 0) ^ 2 + (c 1 - p.1 1) ^ 2 + (c 2 - p.1 2) ^ 2) ∧
    √((c 0 - p.1 0) ^ 2 + (c 1 - p.1 1) ^ 2 + (c 2 - p.1 2) ^ 2) < a').map Prod.snd).sum

/-- Specification: the distances `D` and `a` differ by more than six rounding errors. -/
def Clear (D a : ℝ) : Prop := D < (1 - 6 * R.u) * a ∨ a < (1 - 6 * R.u) * D

/-- C143. If no particle is within six rounding errors of the two edges of a bin, then the entry of the profile times the volume used is
the mass between the exact edges, up to rounding of the sum. -/
theorem C143_entry_partial (pi r200 : ℝ) (hr : 0 ≤ r200) (radii : List ℝ) (hpos : ∀ r ∈ radii, 0 ≤ r) (b : Nat) (hb : b < radii.length)
    (c : Vec ℝ) (ps : List (Vec ℝ × ℝ)) (hm : ∀ p ∈ ps, 0 ≤ p.2) (hu : (ps.length + 1) * R.u ≤ 1 / 2)
    (hclear : ∀ p ∈ ps, Clear R (√((c 0 - p.1 0) ^ 2 + (c 1 - p.1 1) ^ 2 + (c 2 - p.1 2) ^ 2)) (lowerEdge radii b * r200) ∧
      Clear R (√((c 0 - p.1 0) ^ 2 + (c 1 - p.1 1) ^ 2 + (c 2 - p.1 2) ^ 2)) (upperEdge radii b * r200)) :
    ∃ e e', (edges R radii)[b]? = some e ∧ (edges R radii)[b + 1]? = some e' ∧
      (0 < volume R pi r200 e e' →
        |density R pi r200 e e' c ps * volume R pi r200 e e' - exactShellMass (lowerEdge radii b * r200) (upperEdge radii b * r200) c ps| ≤
          2 * (ps.length + 1) * R.u * exactShellMass (lowerEdge radii b * r200) (upperEdge radii b * r200) c ps) := by
  classical
  obtain ⟨e, e', h1, h2, h3, h4⟩ := edges_rel R radii b hb
  refine ⟨e, e', h1, h2, fun hV => ?_⟩
  have hget : ∀ i : Nat, 0 ≤ radii[i]?.getD 0 := by
    intro i
    rcases hi : radii[i]? with _ | r
    · exact le_rfl
    · exact hpos r (List.mem_of_getElem? hi)
  have hlo : 0 ≤ lowerEdge radii b := by
    unfold lowerEdge
    split
    · norm_num
    · exact div_nonneg (add_nonneg (hget _) (hget _)) zero_le_two
  have hup : 0 ≤ upperEdge radii b := by
    unfold upperEdge
    split
    · exact hget _
    · exact div_nonneg (add_nonneg (hget _) (hget _)) zero_le_two
  have hq : 1 - 6 * R.u ≤ 1 := by have := R.u_nonneg; linarith
  have key : ∀ {E x : ℝ}, 0 ≤ E → Rel R 2 x E → ∀ p ∈ ps,
      Clear R (√((c 0 - p.1 0) ^ 2 + (c 1 - p.1 1) ^ 2 + (c 2 - p.1 2) ^ 2)) (E * r200) →
      (distSq R c p.1 < R.pow (R.mul x r200) 2 ↔ √((c 0 - p.1 0) ^ 2 + (c 1 - p.1 1) ^ 2 + (c 2 - p.1 2) ^ 2) < E * r200) := by
    intro E x hE hx p _ hc
    have hd := distSq_rel R c p.1
    have hn := trueDistance_nonneg c p.1
    have hEr := mul_nonneg hE hr
    have he : Rel R 7 (R.pow (R.mul x r200) 2) ((E * r200) ^ 2) :=
      (rel_round ((rel_round (hx.mul (Rel.refl R 0 r200))).pow 2))
    rcases hc with hc | hc
    · refine iff_of_true (clear_le R (k := 5) (l := 7) (m := 6) rfl hd he hn hEr (by exact_mod_cast hc)) (hc.trans_le ?_)
      exact mul_le_of_le_one_left hEr hq
    · refine iff_of_false (not_lt.2 (clear_le R (k := 7) (l := 5) (m := 6) rfl he hd hEr hn (by exact_mod_cast hc)).le) (not_lt.2 (hc.le.trans ?_))
      exact mul_le_of_le_one_left (Real.sqrt_nonneg _) hq
  have hmass : shellMass R r200 e e' c ps = exactShellMass (lowerEdge radii b * r200) (upperEdge radii b * r200) c ps := by
    unfold shellMass exactShellMass
    congr 2
    refine List.filter_congr fun p hp => decide_eq_decide.2 ?_
    have k1 := key hlo h3 p hp (hclear p hp).1
    have k2 := key hup h4 p hp (hclear p hp).2
    unfold InShell
    rw [k2, ge_iff_le, ← not_lt, k1, not_lt]
    exact and_comm
  rw [← hmass]
  exact (C143_density_partial R pi r200 e e' c ps hm hV hu).2

open Classical in
/-- Specification: mass of the particles closer than `a` to `c`, in exact arithmetic. -/
noncomputable def exactEnclosed (a : ℝ) (c : Vec ℝ) (ps : List (Vec ℝ × ℝ)) : ℝ :=
  ((ps.filter fun p => √((c 0 - p.1 0) ^ 2 + (c 1 - p.1 1) ^ 2 + (c 2 - p.1 2) ^ 2) < a).map Prod.snd).sum

/-- C145. If no particle is within four rounding errors of the radius, then the enclosed mass is that of the particles closer than the
radius, up to rounding of the sum. -/
theorem C145_entry (r200 r : ℝ) (hr : 0 ≤ r200) (h0 : 0 ≤ r) (c : Vec ℝ) (ps : List (Vec ℝ × ℝ)) (hm : ∀ p ∈ ps, 0 ≤ p.2)
    (hu : ps.length * R.u ≤ 1 / 2)
    (hclear : ∀ p ∈ ps, √((c 0 - p.1 0) ^ 2 + (c 1 - p.1 1) ^ 2 + (c 2 - p.1 2) ^ 2) < (1 - 4 * R.u) * (r * r200) ∨
      r * r200 ≤ (1 - 4 * R.u) * √((c 0 - p.1 0) ^ 2 + (c 1 - p.1 1) ^ 2 + (c 2 - p.1 2) ^ 2)) :
    |enclosedMass R r200 r c ps - exactEnclosed (r * r200) c ps| ≤ 2 * ps.length * R.u * exactEnclosed (r * r200) c ps := by
  classical
  have hq : 1 - 4 * R.u ≤ 1 := by have := R.u_nonneg; linarith
  set qs := ps.filter fun p => √((c 0 - p.1 0) ^ 2 + (c 1 - p.1 1) ^ 2 + (c 2 - p.1 2) ^ 2) < r * r200 with hqs
  have hsame : enclosedMass R r200 r c ps = (qs.map Prod.snd).foldl R.add 0 := by
    unfold enclosedMass
    congr 2
    refine List.filter_congr fun p hp => decide_eq_decide.2 ?_
    have hp' := C145_right_particles R r200 r hr h0 c p.1
    rcases hclear p hp with h | h
    · exact iff_of_true (hp'.1 h) (h.trans_le (mul_le_of_le_one_left (mul_nonneg h0 hr) hq))
    · exact iff_of_false (fun h' => absurd (hp'.2 h') (not_lt.2 h))
        (not_lt.2 (h.trans (mul_le_of_le_one_left (Real.sqrt_nonneg _) hq)))
  have hexact : exactEnclosed (r * r200) c ps = (qs.map Prod.snd).sum := by
    unfold exactEnclosed
    congr!
  have hqm : ∀ x ∈ qs.map Prod.snd, 0 ≤ x := by
    intro x hx
    obtain ⟨p, hp, rfl⟩ := List.mem_map.1 hx
    exact hm p (List.mem_of_mem_filter hp)
  have hlen : qs.length ≤ ps.length := List.length_filter_le _ _
  obtain ⟨l', h1, e1⟩ := foldl_rel (R := R) (qs.map Prod.snd) 0
  have h3 := rel_sum_of_nonneg h1 (by
    intro x hx
    rcases List.mem_cons.1 hx with rfl | hx
    · exact le_rfl
    · exact hqm x hx)
  rw [← e1, List.sum_cons, zero_add, List.length_map] at h3
  have h4 := (h3.mono hlen).err' hu
  rw [abs_of_nonneg (a := (qs.map Prod.snd).sum) (List.sum_nonneg hqm)] at h4
  rw [hsame, hexact]
  exact h4

/-- A particle of mass 7 at the centre and one at distance 5 in double precision: within 2 there are 7, up to rounding. -/
example : |enclosedMass float64 1 2 ![0, 0, 0] [(![0, 0, 0], 7), (![5, 0, 0], 5)] - 7| ≤ 28 * float64.u := by
  have hu := float64_u_small
  have hu0 := float64.u_nonneg
  have d1 : √(((![0, 0, 0] : Vec ℝ) 0 - (![0, 0, 0] : Vec ℝ) 0) ^ 2 + ((![0, 0, 0] : Vec ℝ) 1 - (![0, 0, 0] : Vec ℝ) 1) ^ 2 +
      ((![0, 0, 0] : Vec ℝ) 2 - (![0, 0, 0] : Vec ℝ) 2) ^ 2) = 0 := by simp
  have d2 : √(((![0, 0, 0] : Vec ℝ) 0 - (![5, 0, 0] : Vec ℝ) 0) ^ 2 + ((![0, 0, 0] : Vec ℝ) 1 - (![5, 0, 0] : Vec ℝ) 1) ^ 2 +
      ((![0, 0, 0] : Vec ℝ) 2 - (![5, 0, 0] : Vec ℝ) 2) ^ 2) = 5 := by
    rw [show (((![0, 0, 0] : Vec ℝ) 0 - (![5, 0, 0] : Vec ℝ) 0) ^ 2 + ((![0, 0, 0] : Vec ℝ) 1 - (![5, 0, 0] : Vec ℝ) 1) ^ 2 +
      ((![0, 0, 0] : Vec ℝ) 2 - (![5, 0, 0] : Vec ℝ) 2) ^ 2) = 5 ^ 2 from
      show ((0 : ℝ) - 5) ^ 2 + (0 - 0) ^ 2 + (0 - 0) ^ 2 = 5 ^ 2 by norm_num]
    exact Real.sqrt_sq (by norm_num)
  have h := C145_entry float64 1 2 zero_le_one zero_le_two ![0, 0, 0] [(![0, 0, 0], 7), (![5, 0, 0], 5)]
    (by intro p hp; simp at hp; rcases hp with rfl | rfl <;> norm_num)
    (by simp only [List.length_cons, List.length_nil]; push_cast; linarith)
    (by
      intro p hp
      simp only [List.mem_cons, List.not_mem_nil, or_false] at hp
      rcases hp with rfl | rfl
      · rw [d1]; exact Or.inl (by linarith)
      · rw [d2]; exact Or.inr (by linarith))
  have hM : exactEnclosed (2 * 1) ![0, 0, 0] [((![0, 0, 0] : Vec ℝ), (7 : ℝ)), (![5, 0, 0], 5)] = 7 := by
    unfold exactEnclosed
    rw [List.filter_cons_of_pos (by simp only [d1]; norm_num), List.filter_cons_of_neg (by simp only [d2]; norm_num)]
    simp
  rw [hM] at h
  refine h.trans_eq ?_
  simp only [List.length_cons, List.length_nil]
  push_cast
  ring

/-- Radii 1, 3 and 4 in double precision, a particle of mass 7 at distance 3 and one at distance 1: the second bin, from 2 to 3.5, has the
first one only. -/
example (pi : ℝ) : ∃ e e', (edges float64 [1, 3, 4])[1]? = some e ∧ (edges float64 [1, 3, 4])[2]? = some e' ∧
    (0 < volume float64 pi 1 e e' → |density float64 pi 1 e e' ![0, 0, 0] [(![1, 2, 2], 7), (![1, 0, 0], 5)] * volume float64 pi 1 e e' - 7| ≤
      42 * float64.u) := by
  have hu := float64_u_small
  have hu0 := float64.u_nonneg
  have d1 : √(((![0, 0, 0] : Vec ℝ) 0 - (![1, 2, 2] : Vec ℝ) 0) ^ 2 + ((![0, 0, 0] : Vec ℝ) 1 - (![1, 2, 2] : Vec ℝ) 1) ^ 2 +
      ((![0, 0, 0] : Vec ℝ) 2 - (![1, 2, 2] : Vec ℝ) 2) ^ 2) = 3 := by
    rw [show (((![0, 0, 0] : Vec ℝ) 0 - (![1, 2, 2] : Vec ℝ) 0) ^ 2 + ((![0, 0, 0] : Vec ℝ) 1 - (![1, 2, 2] : Vec ℝ) 1) ^ 2 +
      ((![0, 0, 0] : Vec ℝ) 2 - (![1, 2, 2] : Vec ℝ) 2) ^ 2) = 3 ^ 2 from
      show ((0 : ℝ) - 1) ^ 2 + (0 - 2) ^ 2 + (0 - 2) ^ 2 = 3 ^ 2 by norm_num]
    exact Real.sqrt_sq (by norm_num)
  have d2 : √(((![0, 0, 0] : Vec ℝ) 0 - (![1, 0, 0] : Vec ℝ) 0) ^ 2 + ((![0, 0, 0] : Vec ℝ) 1 - (![1, 0, 0] : Vec ℝ) 1) ^ 2 +
      ((![0, 0, 0] : Vec ℝ) 2 - (![1, 0, 0] : Vec ℝ) 2) ^ 2) = 1 := by
    rw [show (((![0, 0, 0] : Vec ℝ) 0 - (![1, 0, 0] : Vec ℝ) 0) ^ 2 + ((![0, 0, 0] : Vec ℝ) 1 - (![1, 0, 0] : Vec ℝ) 1) ^ 2 +
      ((![0, 0, 0] : Vec ℝ) 2 - (![1, 0, 0] : Vec ℝ) 2) ^ 2) = 1 ^ 2 from
      show ((0 : ℝ) - 1) ^ 2 + (0 - 0) ^ 2 + (0 - 0) ^ 2 = 1 ^ 2 by norm_num]
    exact Real.sqrt_sq (by norm_num)
  have hlo : lowerEdge [1, 3, 4] 1 * 1 = 2 := by norm_num [lowerEdge]
  have hup : upperEdge [1, 3, 4] 1 * 1 = 7 / 2 := by norm_num [upperEdge]
  obtain ⟨e, e', h1, h2, h3⟩ := C143_entry_partial float64 pi 1 zero_le_one [1, 3, 4]
    (by intro r hr; simp at hr; rcases hr with rfl | rfl | rfl <;> norm_num) 1 (by simp) ![0, 0, 0]
    [(![1, 2, 2], 7), (![1, 0, 0], 5)] (by intro p hp; simp at hp; rcases hp with rfl | rfl <;> norm_num)
    (by simp only [List.length_cons, List.length_nil]; push_cast; linarith)
    (by
      intro p hp
      rw [hlo, hup]
      simp only [List.mem_cons, List.not_mem_nil, or_false] at hp
      rcases hp with rfl | rfl
      · rw [d1]
        exact ⟨Or.inr (by linarith), Or.inl (by linarith)⟩
      · rw [d2]
        exact ⟨Or.inl (by linarith), Or.inl (by linarith)⟩)
  refine ⟨e, e', h1, h2, fun hV => ?_⟩
  have hM : exactShellMass (lowerEdge [1, 3, 4] 1 * 1) (upperEdge [1, 3, 4] 1 * 1) ![0, 0, 0]
      [((![1, 2, 2] : Vec ℝ), (7 : ℝ)), (![1, 0, 0], 5)] = 7 := by
    rw [hlo, hup]
    unfold exactShellMass
    rw [List.filter_cons_of_pos (by simp only [d1]; norm_num), List.filter_cons_of_neg (by simp only [d2]; norm_num)]
    simp
  have h4 := h3 hV
  rw [hM] at h4
  refine h4.trans_eq ?_
  simp only [List.length_cons, List.length_nil]
  push_cast
  ring

end Verif.Round
