import Verif.Round.Entry

/-!
# Rounding: the order of the particles (C189)
-/

namespace Verif.Round

open Verif (Vec)
open Verif.Units (Cfg)

variable (R : Rounding)

/-- C189. The masses returned for an object whose particles are listed in two orders are the same up to rounding. -/
theorem C189_mass_partial (c c' : Cfg ℝ) (hc : c.Pos) (hc' : c'.Pos) (hh : c'.h = c.h) (masses masses' : List ℝ) (hp : masses.Perm masses')
    (hm : ∀ m ∈ masses, 0 ≤ m) (hu : (masses.length + 4) * R.u ≤ 1 / 2) :
    |massOut R c' (totalMass R (masses.map (massIn R c))) - massOut R c' (totalMass R (masses'.map (massIn R c)))| * c'.outM ≤
      4 * (masses.length + 4) * R.u * (masses.sum * c.inM) := by
  have h1 := abs_le.1 (C141_mass R c c' hc hc' hh masses hm hu)
  have h2 := abs_le.1 (C141_mass R c c' hc hc' hh masses' (fun m hm' => hm m (hp.mem_iff.2 hm')) (by rw [← hp.length_eq]; exact hu))
  rw [← hp.length_eq, ← hp.sum_eq] at h2
  rw [← abs_of_pos hc'.outM, ← abs_mul, sub_mul, abs_le]
  constructor <;> linarith [h1.1, h1.2, h2.1, h2.2]

/-- C189. Densities: the entries of the profiles are the same up to rounding of the sums. -/
theorem C189_density_partial (pi r200 e e' : ℝ) (center : Vec ℝ) (ps ps' : List (Vec ℝ × ℝ)) (hp : ps.Perm ps') (hm : ∀ p ∈ ps, 0 ≤ p.2)
    (hV : 0 < volume R pi r200 e e') (hu : (ps.length + 1) * R.u ≤ 1 / 2) :
    |density R pi r200 e e' center ps - density R pi r200 e e' center ps'| * volume R pi r200 e e' ≤
      4 * (ps.length + 1) * R.u * (ps.map Prod.snd).sum := by
  classical
  have h1 := abs_le.1 (C143_density_partial R pi r200 e e' center ps hm hV hu).2
  have h2 := abs_le.1 (C143_density_partial R pi r200 e e' center ps' (fun p hp' => hm p (hp.mem_iff.2 hp')) hV
    (by rw [← hp.length_eq]; exact hu)).2
  have hs : shellMass R r200 e e' center ps' = shellMass R r200 e e' center ps := by
    unfold shellMass
    exact (((hp.filter _).map _).sum_eq).symm
  have hle : shellMass R r200 e e' center ps ≤ (ps.map Prod.snd).sum := by
    unfold shellMass
    refine List.Sublist.sum_le_sum (List.filter_sublist.map _) ?_
    intro x hx
    obtain ⟨p, hp', rfl⟩ := List.mem_map.1 hx
    exact hm p hp'
  rw [← hp.length_eq, hs] at h2
  have h3 : 2 * (ps.length + 1) * R.u * shellMass R r200 e e' center ps ≤ 2 * (ps.length + 1) * R.u * (ps.map Prod.snd).sum :=
    mul_le_mul_of_nonneg_left hle (by have := R.u_nonneg; positivity)
  rw [← abs_of_pos hV, ← abs_mul, sub_mul, abs_le]
  constructor <;> linarith [h1.1, h1.2, h2.1, h2.2]

theorem foldl_err (l : List ℝ) (hl : ∀ x ∈ l, 0 ≤ x) (n : Nat) (hn : l.length ≤ n) (hu : n * R.u ≤ 1 / 2) :
    |l.foldl R.add 0 - l.sum| ≤ 2 * n * R.u * l.sum := by
  obtain ⟨l', h1, e1⟩ := foldl_rel (R := R) l 0
  have h3 := rel_sum_of_nonneg h1 (by
    intro x hx
    rcases List.mem_cons.1 hx with rfl | hx
    · exact le_rfl
    · exact hl x hx)
  rw [← e1, List.sum_cons, zero_add] at h3
  have h4 := (h3.mono hn).err' hu
  rwa [abs_of_nonneg (a := l.sum) (List.sum_nonneg hl)] at h4

/-- C189. The enclosed masses are the same up to rounding of the sums. -/
theorem C189_enclosed_partial (r200 r : ℝ) (center : Vec ℝ) (ps ps' : List (Vec ℝ × ℝ)) (hp : ps.Perm ps') (hm : ∀ p ∈ ps, 0 ≤ p.2)
    (hu : ps.length * R.u ≤ 1 / 2) :
    |enclosedMass R r200 r center ps - enclosedMass R r200 r center ps'| ≤ 4 * ps.length * R.u * (ps.map Prod.snd).sum := by
  classical
  set l := (ps.filter fun p => distSq R center p.1 < R.pow (R.mul r r200) 2).map Prod.snd with hl
  set l' := (ps'.filter fun p => distSq R center p.1 < R.pow (R.mul r r200) 2).map Prod.snd with hl'
  have e1 : enclosedMass R r200 r center ps = l.foldl R.add 0 := by unfold enclosedMass; congr!
  have e2 : enclosedMass R r200 r center ps' = l'.foldl R.add 0 := by unfold enclosedMass; congr!
  have hperm : l.Perm l' := (hp.filter _).map _
  have h0 : ∀ x ∈ l, 0 ≤ x := by
    intro x hx
    obtain ⟨p, hp', rfl⟩ := List.mem_map.1 hx
    exact hm p (List.mem_of_mem_filter hp')
  have hlen : l.length ≤ ps.length := by rw [hl, List.length_map]; exact List.length_filter_le _ _
  have h1 := abs_le.1 (foldl_err R l h0 ps.length hlen hu)
  have h2 := abs_le.1 (foldl_err R l' (fun x hx => h0 x (hperm.mem_iff.2 hx)) ps.length (hperm.length_eq ▸ hlen) hu)
  rw [← hperm.sum_eq] at h2
  have hle : l.sum ≤ (ps.map Prod.snd).sum := by
    refine List.Sublist.sum_le_sum (List.filter_sublist.map _) ?_
    intro x hx
    obtain ⟨p, hp', rfl⟩ := List.mem_map.1 hx
    exact hm p hp'
  have h3 : 2 * ps.length * R.u * l.sum ≤ 2 * ps.length * R.u * (ps.map Prod.snd).sum :=
    mul_le_mul_of_nonneg_left hle (by have := R.u_nonneg; positivity)
  rw [e1, e2, abs_le]
  constructor <;> linarith [h1.1, h1.2, h2.1, h2.2]

theorem float64_eval (x : ℝ) (e n : ℤ) (hx : 0 < x) (h1 : (2 : ℝ) ^ e ≤ x) (h2 : x < 2 ^ (e + 1))
    (h3 : |x / 2 ^ (e - 52) - n| < 1 / 2) : float64.rnd x = n * 2 ^ (e - 52) := by
  have := fl_eq (p := 53) e n hx h1 h2 (by norm_num; norm_num at h3; exact h3)
  change fl 53 x = _
  rw [this]
  norm_num

/-- C189 is false in the last digit: in double precision and in units in which nothing has to be converted, four particles of masses 1 and three times
2^-54 have the mass 1 if the heavy one is listed first, and more if it is listed last. -/
theorem C189_order_refuted (h : ℝ) (hh : 0 < h) : ∃ c : Cfg ℝ, c.Pos ∧ c.h = h ∧
    massOut float64 c (totalMass float64 ([1, 1 / 2 ^ 54, 1 / 2 ^ 54, 1 / 2 ^ 54].map (massIn float64 c))) = 1 ∧
    massOut float64 c (totalMass float64 ([1 / 2 ^ 54, 1 / 2 ^ 54, 1 / 2 ^ 54, 1].map (massIn float64 c))) = 1 + 1 / 2 ^ 52 := by
  have hM := massInternal_pos float64 hh
  have r1 : float64.rnd 1 = 1 := by
    rw [float64_eval 1 0 (2 ^ 52) (by norm_num) (by norm_num) (by norm_num) (by norm_num)]; norm_num
  have ra : float64.rnd (1 / 2 ^ 54) = 1 / 2 ^ 54 := by
    rw [float64_eval (1 / 2 ^ 54) (-54) (2 ^ 52) (by norm_num) (by norm_num) (by norm_num) (by norm_num)]; norm_num
  have r2a : float64.rnd (1 / 2 ^ 53) = 1 / 2 ^ 53 := by
    rw [float64_eval (1 / 2 ^ 53) (-53) (2 ^ 52) (by norm_num) (by norm_num) (by norm_num) (by norm_num)]; norm_num
  have r3a : float64.rnd (3 / 2 ^ 54) = 3 / 2 ^ 54 := by
    rw [float64_eval (3 / 2 ^ 54) (-53) (3 * 2 ^ 51) (by norm_num) (by norm_num) (by norm_num) (by norm_num)]; norm_num
  have r1a : float64.rnd (1 + 1 / 2 ^ 54) = 1 := by
    rw [float64_eval (1 + 1 / 2 ^ 54) 0 (2 ^ 52) (by norm_num) (by norm_num) (by norm_num) (by norm_num [abs_lt])]; norm_num
  have r13 : float64.rnd (1 + 3 / 2 ^ 54) = 1 + 1 / 2 ^ 52 := by
    rw [float64_eval (1 + 3 / 2 ^ 54) 0 (2 ^ 52 + 1) (by norm_num) (by norm_num) (by norm_num) (by norm_num [abs_lt])]; norm_num
  have rlast : float64.rnd (1 + 1 / 2 ^ 52) = 1 + 1 / 2 ^ 52 := by
    rw [float64_eval (1 + 1 / 2 ^ 52) 0 (2 ^ 52 + 1) (by norm_num) (by norm_num) (by norm_num) (by norm_num)]; norm_num
  refine ⟨⟨1, massInternal float64 h, 1, h, 1, massInternal float64 h, 1⟩, ⟨one_pos, hM, one_pos, hh, one_pos, hM, one_pos⟩, rfl, ?_⟩
  have hin : ∀ x, massIn float64 ⟨1, massInternal float64 h, 1, h, 1, massInternal float64 h, 1⟩ x = float64.rnd x := by
    intro x
    unfold massIn Rounding.mul Rounding.div
    dsimp only
    rw [div_self hM.ne', r1, mul_one]
  have hout : ∀ x, massOut float64 ⟨1, massInternal float64 h, 1, h, 1, massInternal float64 h, 1⟩ x = float64.rnd x := by
    intro x
    unfold massOut Rounding.mul Rounding.div
    dsimp only
    rw [div_self hM.ne', r1, mul_one]
  have s2 : (1 / 2 ^ 54 + 1 / 2 ^ 54 : ℝ) = 1 / 2 ^ 53 := by norm_num
  have s3 : (1 / 2 ^ 53 + 1 / 2 ^ 54 : ℝ) = 3 / 2 ^ 54 := by norm_num
  have s4 : (3 / 2 ^ 54 + 1 : ℝ) = 1 + 3 / 2 ^ 54 := by ring
  constructor
  · rw [hout]
    simp only [totalMass, List.map_cons, List.map_nil, List.foldl_cons, List.foldl_nil, hin, Rounding.add, zero_add, r1, ra, r1a]
  · rw [hout]
    simp only [totalMass, List.map_cons, List.map_nil, List.foldl_cons, List.foldl_nil, hin, Rounding.add, zero_add, r1, ra, s2, r2a, s3, r3a, s4,
      r13, rlast]

/-- Two particles in either order, in double precision. -/
example (c : Cfg ℝ) (hc : c.Pos) : |massOut float64 c (totalMass float64 ([1, 3].map (massIn float64 c))) -
    massOut float64 c (totalMass float64 ([3, 1].map (massIn float64 c)))| * c.outM ≤ 4 * (2 + 4) * float64.u * (4 * c.inM) := by
  have hu := float64_u_small
  have := C189_mass_partial float64 c c hc hc rfl [1, 3] [3, 1] (List.Perm.swap _ _ _)
    (by intro m hm; simp at hm; rcases hm with rfl | rfl <;> norm_num) (by simp only [List.length_cons, List.length_nil]; push_cast; linarith)
  refine this.trans_eq ?_
  simp only [List.length_cons, List.length_nil, List.sum_cons, List.sum_nil]
  push_cast
  ring

/-- Two particles in either order in the ball of radius R200 = 1, with 3.14 for π. -/
example : |density float64 3.14 1 0 1 ![0, 0, 0] [(![0, 0, 0], 1), (![1, 2, 2], 3)] -
    density float64 3.14 1 0 1 ![0, 0, 0] [(![1, 2, 2], 3), (![0, 0, 0], 1)]| * volume float64 3.14 1 0 1 ≤ 4 * (2 + 1) * float64.u * 4 := by
  have hu := float64_u_small
  have h1 : float64.rnd 1 = 1 := one_stored 53 (by norm_num)
  have h0 : float64.rnd 0 = 0 := rnd_zero float64
  have hV : 0 < volume float64 3.14 1 0 1 := by
    have e : volume float64 3.14 1 0 1 = float64.rnd (float64.rnd (float64.rnd (4 / 3) * 3.14) * 1) := by
      simp [volume, Rounding.mul, Rounding.div, Rounding.sub, Rounding.pow, h1, h0]
    rw [e]
    exact rnd_pos float64 (mul_pos (rnd_pos float64 (mul_pos (rnd_pos float64 (by norm_num)) (by norm_num))) one_pos)
  have := C189_density_partial float64 3.14 1 0 1 ![0, 0, 0] [(![0, 0, 0], 1), (![1, 2, 2], 3)] [(![1, 2, 2], 3), (![0, 0, 0], 1)]
    (List.Perm.swap _ _ _) (by intro p hp; simp at hp; rcases hp with rfl | rfl <;> norm_num) hV
    (by simp only [List.length_cons, List.length_nil]; push_cast; linarith)
  refine this.trans_eq ?_
  simp only [List.length_cons, List.length_nil, List.map_cons, List.map_nil, List.sum_cons, List.sum_nil]
  push_cast
  ring

/-- Two particles in either order within 2. -/
example : |enclosedMass float64 1 2 ![0, 0, 0] [(![0, 0, 0], 1), (![1, 0, 0], 3)] -
    enclosedMass float64 1 2 ![0, 0, 0] [(![1, 0, 0], 3), (![0, 0, 0], 1)]| ≤ 4 * 2 * float64.u * 4 := by
  have hu := float64_u_small
  have := C189_enclosed_partial float64 1 2 ![0, 0, 0] [(![0, 0, 0], 1), (![1, 0, 0], 3)] [(![1, 0, 0], 3), (![0, 0, 0], 1)]
    (List.Perm.swap _ _ _) (by intro p hp; simp at hp; rcases hp with rfl | rfl <;> norm_num)
    (by simp only [List.length_cons, List.length_nil]; push_cast; linarith)
  refine this.trans_eq ?_
  simp only [List.length_cons, List.length_nil, List.map_cons, List.map_nil, List.sum_cons, List.sum_nil]
  push_cast
  ring

end Verif.Round
