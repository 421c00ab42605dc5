import Verif.Round.Binary

/-!
# Rounding: theorems (C139-C144)
-/

namespace Verif.Round

open Verif (Vec)
open Verif.Units (Cfg)

variable (R : Rounding)

/-! ## C139: data handed in comes back up to rounding -/

theorem lengthInternal_pos {h : ℝ} (hh : 0 < h) : 0 < lengthInternal R h := rnd_pos R (by positivity)

theorem massInternal_pos {h : ℝ} (hh : 0 < h) : 0 < massInternal R h := rnd_pos R (by positivity)

theorem rel_there_and_back (l : ℝ) (hl : 0 < l) (inU outU x : ℝ) (hout : 0 < outU) :
    Rel R 4 (R.mul (R.mul x (R.div inU l)) (R.div l outU)) (x * inU / outU) := by
  have h1 : Rel R 1 (R.div inU l) (inU / l) := rel_rnd R _
  have h2 : Rel R 2 (R.mul x (R.div inU l)) (x * (inU / l)) := by
    have := rel_round ((Rel.refl R 0 x).mul h1)
    exact this
  have h3 : Rel R 1 (R.div l outU) (l / outU) := rel_rnd R _
  have h4 := rel_round (h2.mul h3)
  have e : x * (inU / l) * (l / outU) = x * inU / outU := by field_simp
  rw [e] at h4
  exact h4

theorem scale_err {k : Nat} {y x o : ℝ} (ho : 0 < o) (h : Rel R k y (x / o)) (hk : k * R.u ≤ 1 / 2) :
    |y * o - x| ≤ 2 * k * R.u * |x| := by
  have := (h.mul (Rel.refl R 0 o)).err' hk
  rwa [div_mul_cancel₀ _ ho.ne'] at this

/-- C139. Lengths: what is given in input units and returned in output units is the same length up to 8 rounding errors. -/
theorem C139_lengths (hu : R.u ≤ 1 / 8) (c c' : Cfg ℝ) (hc : c.Pos) (hc' : c'.Pos) (hh : c'.h = c.h) (x : ℝ) :
    |lengthOut R c' (lengthIn R c x) * c'.outL - x * c.inL| ≤ 8 * R.u * |x * c.inL| := by
  have h := rel_there_and_back R (lengthInternal R c.h) (lengthInternal_pos R hc.h) c.inL c'.outL x hc'.outL
  unfold lengthOut lengthIn
  rw [hh]
  have := scale_err R hc'.outL h (by push_cast; linarith)
  exact this.trans_eq (by push_cast; ring)

/-- C139. Masses. -/
theorem C139_masses (hu : R.u ≤ 1 / 8) (c c' : Cfg ℝ) (hc : c.Pos) (hc' : c'.Pos) (hh : c'.h = c.h) (x : ℝ) :
    |massOut R c' (massIn R c x) * c'.outM - x * c.inM| ≤ 8 * R.u * |x * c.inM| := by
  have h := rel_there_and_back R (massInternal R c.h) (massInternal_pos R hc.h) c.inM c'.outM x hc'.outM
  unfold massOut massIn
  rw [hh]
  have := scale_err R hc'.outM h (by push_cast; linarith)
  exact this.trans_eq (by push_cast; ring)

/-- With the same units and double precision: equal up to one part in 10^15. -/
example (c : Cfg ℝ) (hc : c.Pos) (hL : c.outL = c.inL) (x : ℝ) :
    |lengthOut float64 c (lengthIn float64 c x) - x| ≤ 1 / 10 ^ 15 * |x| := by
  have h := C139_lengths float64 (by unfold float64 binary; norm_num) c c hc hc rfl x
  have hp := hc.inL
  rw [hL, ← sub_mul, abs_mul, abs_mul, abs_of_pos hp, ← mul_assoc] at h
  have h2 := le_of_mul_le_mul_right h hp
  refine h2.trans (mul_le_mul_of_nonneg_right ?_ (abs_nonneg x))
  unfold float64 binary
  norm_num

/-! ## C140: the converters -/

/-- C140. The converters round their factor to single precision: there and back in the same unit, 1 becomes 1.0000000475. -/
theorem C140_converters_refuted (h : ℝ) (hh : 0 < h) : ∃ c : Cfg ℝ, c.Pos ∧ c.h = h ∧ c.outL = c.inL ∧
    lengthInternalToOut float64 float32 c (lengthInToInternal float64 float32 c 1) = 8589935000 / 2 ^ 33 ∧
    1 / 10 ^ 8 * |(1 : ℝ)| < |lengthInternalToOut float64 float32 c (lengthInToInternal float64 float32 c 1) - 1| := by
  have hl := lengthInternal_pos float64 hh
  set l := lengthInternal float64 h with hldef
  have e1 : fl 53 ((1 : ℝ) / 1000) = 1152921504606847 * 2 ^ (-60 : ℤ) := by
    have := fl_eq (p := 53) (x := (1 : ℝ) / 1000) (-10) 4611686018427388 (by norm_num)
      (by norm_num) (by norm_num) (by rw [abs_lt]; constructor <;> norm_num)
    rw [this]; norm_num
  have e2 : fl 24 ((1152921504606847 : ℝ) * 2 ^ (-60 : ℤ)) = 8589935 * 2 ^ (-33 : ℤ) := by
    have := fl_eq (p := 24) (x := (1152921504606847 : ℝ) * 2 ^ (-60 : ℤ)) (-10) 8589935 (by positivity)
      (by norm_num) (by norm_num) (by rw [abs_lt]; constructor <;> norm_num)
    rw [this]; norm_num
  have e3 : fl 53 (1 * (8589935 * 2 ^ (-33 : ℤ)) : ℝ) = 8589935 * 2 ^ (-33 : ℤ) := by
    have := fl_eq (p := 53) (x := (1 * (8589935 * 2 ^ (-33 : ℤ)) : ℝ)) (-10) (8589935 * 2 ^ 29) (by positivity)
      (by norm_num) (by norm_num) (by rw [abs_lt]; constructor <;> norm_num)
    rw [this]; norm_num
  have e4 : fl 53 (1000 : ℝ) = 1000 := by
    have := fl_eq (p := 53) (x := (1000 : ℝ)) 9 (1000 * 2 ^ 43) (by norm_num)
      (by norm_num) (by norm_num) (by rw [abs_lt]; constructor <;> norm_num)
    rw [this]; norm_num
  have e5 : fl 24 (1000 : ℝ) = 1000 := by
    have := fl_eq (p := 24) (x := (1000 : ℝ)) 9 (1000 * 2 ^ 14) (by norm_num)
      (by norm_num) (by norm_num) (by rw [abs_lt]; constructor <;> norm_num)
    rw [this]; norm_num
  have e6 : fl 53 (8589935 * 2 ^ (-33 : ℤ) * 1000 : ℝ) = 8589935000 / 2 ^ 33 := by
    have := fl_eq (p := 53) (x := (8589935 * 2 ^ (-33 : ℤ) * 1000 : ℝ)) 0 (8589935000 * 2 ^ 19) (by positivity)
      (by norm_num) (by norm_num) (by rw [abs_lt]; constructor <;> norm_num)
    rw [this]; norm_num
  have key : lengthInternalToOut float64 float32 ⟨l / 1000, 1, 1, h, l / 1000, 1, 1⟩
      (lengthInToInternal float64 float32 ⟨l / 1000, 1, 1, h, l / 1000, 1, 1⟩ 1) = 8589935000 / 2 ^ 33 := by
    have hne := hl.ne'
    unfold lengthInternalToOut lengthInToInternal
    simp only [← hldef, Rounding.div, Rounding.mul]
    rw [show l / 1000 / l = 1 / 1000 by field_simp, show l / (l / 1000) = 1000 by field_simp]
    simp only [float64, float32, binary, e1, e2, e3, e4, e5, e6]
  refine ⟨⟨l / 1000, 1, 1, h, l / 1000, 1, 1⟩, ?_, rfl, rfl, key, ?_⟩
  · constructor <;> dsimp only <;> first | exact hh | positivity | norm_num
  · rw [key]
    norm_num

/-- C140. What holds: there and back is correct up to 12 rounding errors of single precision. -/
theorem C140_converters_partial (S : Rounding) (hRS : R.u ≤ S.u) (hu : S.u ≤ 1 / 12) (c c' : Cfg ℝ) (hc : c.Pos) (hc' : c'.Pos)
    (hh : c'.h = c.h) (x : ℝ) :
    |lengthInternalToOut R S c' (lengthInToInternal R S c x) * c'.outL - x * c.inL| ≤ 12 * S.u * |x * c.inL| := by
  have hl := lengthInternal_pos R hc.h
  have h1 : Rel S 2 (S.rnd (R.div c.inL (lengthInternal R c.h))) (c.inL / lengthInternal R c.h) :=
    rel_round ((rel_rnd R _).coarser hRS)
  have h2 : Rel S 3 (lengthInToInternal R S c x) (x * (c.inL / lengthInternal R c.h)) := by
    have := ((rel_rnd R (x * S.rnd (R.div c.inL (lengthInternal R c.h)))).coarser hRS).trans ((Rel.refl S 0 x).mul h1)
    exact this
  have h3 : Rel S 2 (S.rnd (R.div (lengthInternal R c.h) c'.outL)) (lengthInternal R c.h / c'.outL) :=
    rel_round ((rel_rnd R _).coarser hRS)
  have h4 := ((rel_rnd R (lengthInToInternal R S c x * S.rnd (R.div (lengthInternal R c.h) c'.outL))).coarser hRS).trans
    (h2.mul h3)
  have hout := hc'.outL
  have e : x * (c.inL / lengthInternal R c.h) * (lengthInternal R c.h / c'.outL) = x * c.inL / c'.outL := by field_simp
  rw [e] at h4
  unfold lengthInternalToOut
  rw [hh]
  have := scale_err S hout h4 (by push_cast; linarith)
  exact this.trans_eq (by push_cast; ring)

/-! ## C141: total masses -/

/-- C141. The mass returned for an object of `n` particles is the sum of the masses handed in, up to `2n + 8` rounding errors. -/
theorem C141_mass (c c' : Cfg ℝ) (hc : c.Pos) (hc' : c'.Pos) (hh : c'.h = c.h) (masses : List ℝ) (hm : ∀ m ∈ masses, 0 ≤ m)
    (hu : (masses.length + 4) * R.u ≤ 1 / 2) :
    |massOut R c' (totalMass R (masses.map (massIn R c))) * c'.outM - masses.sum * c.inM| ≤
      2 * (masses.length + 4) * R.u * (masses.sum * c.inM) := by
  have hl := massInternal_pos R hc.h
  have hin := hc.inM
  have hout := hc'.outM
  obtain ⟨l', h1, e1⟩ := foldl_rel (R := R) (masses.map (massIn R c)) 0
  have h2 : List.Forall₂ (Rel R 2) (masses.map (massIn R c)) (masses.map fun m => m * (c.inM / massInternal R c.h)) := by
    rw [List.forall₂_map_left_iff, List.forall₂_map_right_iff]
    exact List.forall₂_same.2 fun m _ => rel_round ((Rel.refl R 0 m).mul (rel_rnd R _))
  have h3 : List.Forall₂ (Rel R (masses.length + 2)) l' (0 :: masses.map fun m => m * (c.inM / massInternal R c.h)) := by
    rw [List.length_map] at h1
    have h2' : List.Forall₂ (Rel R 2) (0 :: masses.map (massIn R c))
      (0 :: masses.map fun m => m * (c.inM / massInternal R c.h)) := .cons (Rel.refl R 2 0) h2
    exact forall₂_rel_trans h1 h2'
  have h4 := rel_sum_of_nonneg h3 (by
    intro x hx
    rcases List.mem_cons.1 hx with rfl | hx
    · exact le_rfl
    · obtain ⟨m, hmm, rfl⟩ := List.mem_map.1 hx
      have := hm m hmm
      positivity)
  rw [List.sum_cons, zero_add, List.sum_map_mul_right, List.map_id', ← e1] at h4
  have h5 : Rel R (masses.length + 4) (massOut R c' (totalMass R (masses.map (massIn R c)))) (masses.sum * c.inM / c'.outM) := by
    have h6 := rel_round (h4.mul (rel_rnd R (massInternal R c.h / c'.outM)))
    have e : masses.sum * (c.inM / massInternal R c.h) * (massInternal R c.h / c'.outM) = masses.sum * c.inM / c'.outM := by
      field_simp
    rw [e] at h6
    unfold massOut
    rw [hh]
    exact h6
  have h7 := scale_err R hout h5 (by push_cast; exact hu)
  have hs : 0 ≤ masses.sum * c.inM := mul_nonneg (List.sum_nonneg hm) hin.le
  rw [abs_of_nonneg hs] at h7
  exact h7.trans_eq (by push_cast; ring)

theorem le_foldl (l : List ℝ) (hl : ∀ x ∈ l, 0 ≤ x) (a : ℝ) (ha : R.Stored a) : a ≤ l.foldl R.add a := by
  induction l generalizing a with
  | nil => exact le_rfl
  | cons x l ih =>
    have hx := hl x List.mem_cons_self
    have h1 : a ≤ R.add a x := by
      have := R.mono (show a ≤ a + x by linarith)
      rwa [ha] at this
    exact h1.trans (ih (fun y hy => hl y (List.mem_cons_of_mem _ hy)) _ (R.idem _))

/-- C141. The mass of an object is at least the mass of each of its particles, and adding a particle never lowers it. -/
theorem C141_monotone (masses : List ℝ) (hm : ∀ m ∈ masses, 0 ≤ m) (hst : ∀ m ∈ masses, R.Stored m) :
    (∀ m ∈ masses, m ≤ totalMass R masses) ∧ ∀ m, 0 ≤ m → totalMass R masses ≤ totalMass R (masses ++ [m]) := by
  have hst0 : R.Stored 0 := rnd_zero R
  constructor
  · have H : ∀ (l : List ℝ) (a : ℝ), (∀ x ∈ l, 0 ≤ x) → (∀ x ∈ l, R.Stored x) → 0 ≤ a → ∀ x ∈ l, x ≤ l.foldl R.add a := by
      intro l
      induction l with
      | nil => intro a _ _ _ x hx; cases hx
      | cons y l ih =>
        intro a h0 hs ha x hx
        have h0' : ∀ x ∈ l, 0 ≤ x := fun z hz => h0 z (List.mem_cons_of_mem _ hz)
        have hy := h0 y List.mem_cons_self
        rcases List.mem_cons.1 hx with rfl | hx
        · have h1 : x ≤ R.add a x := by
            have := R.mono (show x ≤ a + x by linarith)
            rwa [hs x List.mem_cons_self] at this
          exact h1.trans (le_foldl R l h0' _ (R.idem _))
        · exact ih _ h0' (fun z hz => hs z (List.mem_cons_of_mem _ hz)) (rnd_nonneg R (by linarith)) x hx
    exact H masses 0 hm hst le_rfl
  · intro m hm'
    unfold totalMass
    rw [List.foldl_append]
    apply le_foldl R [m] (by simpa using hm')
    rcases masses with _ | ⟨x, l⟩
    · exact hst0
    · have H : ∀ (l : List ℝ) (a : ℝ), R.Stored a → R.Stored (l.foldl R.add a) := by
        intro l
        induction l with
        | nil => intro a ha; exact ha
        | cons y l ih => intro a _; exact ih _ (R.idem _)
      exact H _ _ hst0

theorem foldl_mono {l l' : List ℝ} (h : l.Sublist l') (hl' : ∀ x ∈ l', 0 ≤ x) (a a' : ℝ) (haa : a ≤ a') (ha : R.Stored a) :
    l.foldl R.add a ≤ l'.foldl R.add a' := by
  induction h generalizing a a' with
  | slnil => exact haa
  | @cons l l' x h ih =>
    have hx := hl' x List.mem_cons_self
    rw [List.foldl_cons]
    refine ih (fun y hy => hl' y (List.mem_cons_of_mem _ hy)) a _ ?_ ha
    have := R.mono (show a ≤ a' + x by linarith)
    rwa [ha] at this
  | @cons_cons l l' x h ih =>
    rw [List.foldl_cons, List.foldl_cons]
    exact ih (fun y hy => hl' y (List.mem_cons_of_mem _ hy)) _ _ (R.mono (by linarith)) (R.idem _)

/-- C141. Leaving out particles never makes an object heavier. -/
theorem C141_sublist (masses masses' : List ℝ) (hsub : masses.Sublist masses') (hm : ∀ m ∈ masses', 0 ≤ m) :
    totalMass R masses ≤ totalMass R masses' := foldl_mono R hsub hm 0 0 le_rfl (rnd_zero R)

/-- A thousand million particles in double precision: the mass is right to six digits. -/
example (c : Cfg ℝ) (hc : c.Pos) (hM : c.outM = c.inM) (masses : List ℝ) (hm : ∀ m ∈ masses, 0 ≤ m)
    (hn : masses.length ≤ 10 ^ 9) :
    |massOut float64 c (totalMass float64 (masses.map (massIn float64 c))) - masses.sum| ≤ 1 / 10 ^ 6 * masses.sum := by
  have hn' : (masses.length : ℝ) ≤ 1000000000 := by exact_mod_cast hn
  have hu : float64.u = (1 / 2) ^ 53 := rfl
  have h := C141_mass float64 c c hc hc rfl masses hm (by rw [hu]; norm_num; linarith)
  have hp := hc.inM
  rw [hM, ← sub_mul, abs_mul, abs_of_pos hp, ← mul_assoc] at h
  refine (le_of_mul_le_mul_right h hp).trans (mul_le_mul_of_nonneg_right ?_ (List.sum_nonneg hm))
  rw [hu]
  norm_num
  linarith

end Verif.Round
