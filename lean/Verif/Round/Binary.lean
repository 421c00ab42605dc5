import Verif.Round.Lemmas
import Mathlib.Data.Int.Log
import Mathlib.Algebra.Order.Round

/-!
# Binary floating-point numbers

Rounding to `p` binary digits, to nearest with ties to even, exponents unbounded.  `p = 53` is `np.float64`, `p = 24` is
`np.float32`.
-/

namespace Verif.Round

open Classical in
/-- Nearest integer, ties to even. -/
noncomputable def nearest (x : ℝ) : ℤ :=
  if Int.fract x < 1 / 2 then ⌊x⌋
  else if 1 / 2 < Int.fract x then ⌊x⌋ + 1
  else if Even ⌊x⌋ then ⌊x⌋ else ⌊x⌋ + 1

theorem nearest_err (x : ℝ) : |(nearest x : ℝ) - x| ≤ 1 / 2 := by
  have h0 := Int.floor_add_fract x
  have h1 := Int.fract_nonneg x
  have h2 := Int.fract_lt_one x
  unfold nearest
  rw [abs_le]
  split_ifs <;> push_cast <;> constructor <;> linarith

theorem nearest_int (n : ℤ) : nearest (n : ℝ) = n := by
  unfold nearest
  rw [if_pos (by simp)]
  simp

theorem nearest_mono {x y : ℝ} (h : x ≤ y) : nearest x ≤ nearest y := by
  by_contra hc
  push Not at hc
  have h1 := abs_le.1 (nearest_err x)
  have h2 := abs_le.1 (nearest_err y)
  have h3 : (nearest y : ℝ) + 1 ≤ nearest x := by exact_mod_cast hc
  have : x = y := by linarith [h1.2, h2.1]
  rw [this] at hc
  exact lt_irrefl _ hc

/-- Place of the last digit of `x` with `p` digits. -/
noncomputable def place (p : ℕ) (x : ℝ) : ℤ := Int.log 2 x - (p - 1)

/-- Rounding of a positive number to `p` binary digits. -/
noncomputable def flPos (p : ℕ) (x : ℝ) : ℝ := nearest (x / 2 ^ place p x) * 2 ^ place p x

/-- Rounding to `p` binary digits. -/
noncomputable def fl (p : ℕ) (x : ℝ) : ℝ := if 0 < x then flPos p x else if x < 0 then -flPos p (-x) else 0

theorem flPos_err {p : ℕ} {x : ℝ} (hx : 0 < x) : |flPos p x - x| ≤ (1 / 2) ^ p * x := by
  have h2 : (0 : ℝ) < 2 ^ place p x := by positivity
  have h := nearest_err (x / 2 ^ place p x)
  have e : flPos p x - x = (nearest (x / 2 ^ place p x) - x / 2 ^ place p x) * 2 ^ place p x := by
    unfold flPos; field_simp
  rw [e, abs_mul, abs_of_pos h2]
  have hl : (2 : ℝ) ^ Int.log 2 x ≤ x := by
    have := Int.zpow_log_le_self (b := 2) (r := x) (by norm_num) hx
    exact_mod_cast this
  calc _ ≤ 1 / 2 * 2 ^ place p x := mul_le_mul_of_nonneg_right h h2.le
    _ = (1 / 2) ^ p * 2 ^ Int.log 2 x := by
      unfold place
      rw [zpow_sub₀ (by norm_num), zpow_sub₀ (by norm_num), zpow_natCast, zpow_one, one_div, inv_pow]
      field_simp
    _ ≤ _ := mul_le_mul_of_nonneg_left hl (by positivity)

theorem int_mul_zpow_dvd {s e : ℤ} (h : s ≤ e) : ∃ n : ℤ, (2 : ℝ) ^ e / 2 ^ s = n := by
  refine ⟨2 ^ (e - s).toNat, ?_⟩
  rw [← zpow_sub₀ (by norm_num : (2 : ℝ) ≠ 0)]
  push_cast
  rw [← zpow_natCast, Int.toNat_of_nonneg (by omega)]

/-- Below a power of two which is a multiple of the place, rounding stays below. -/
theorem flPos_le_zpow {p : ℕ} {x : ℝ} {e : ℤ} (hs : place p x ≤ e) (h : x ≤ 2 ^ e) : flPos p x ≤ 2 ^ e := by
  have h2 : (0 : ℝ) < 2 ^ place p x := by positivity
  obtain ⟨n, hn⟩ := int_mul_zpow_dvd hs
  have h3 : nearest (x / 2 ^ place p x) ≤ n := by
    rw [← nearest_int n, ← hn]
    exact nearest_mono (by gcongr)
  have h4 : (2 : ℝ) ^ e = n * 2 ^ place p x := by rw [← hn]; field_simp
  rw [h4]
  unfold flPos
  have : ((nearest (x / 2 ^ place p x) : ℤ) : ℝ) ≤ n := by exact_mod_cast h3
  exact mul_le_mul_of_nonneg_right this h2.le

theorem zpow_le_flPos {p : ℕ} {x : ℝ} {e : ℤ} (hs : place p x ≤ e) (h : 2 ^ e ≤ x) : 2 ^ e ≤ flPos p x := by
  have h2 : (0 : ℝ) < 2 ^ place p x := by positivity
  obtain ⟨n, hn⟩ := int_mul_zpow_dvd hs
  have h3 : n ≤ nearest (x / 2 ^ place p x) := by
    rw [← nearest_int n, ← hn]
    exact nearest_mono (by gcongr)
  have h4 : (2 : ℝ) ^ e = n * 2 ^ place p x := by rw [← hn]; field_simp
  rw [h4]
  unfold flPos
  have : (n : ℝ) ≤ (nearest (x / 2 ^ place p x) : ℤ) := by exact_mod_cast h3
  exact mul_le_mul_of_nonneg_right this h2.le

theorem log_le_self {x : ℝ} (hx : 0 < x) : (2 : ℝ) ^ Int.log 2 x ≤ x := by
  have := Int.zpow_log_le_self (b := 2) (r := x) (by norm_num) hx
  exact_mod_cast this

theorem lt_log_succ (x : ℝ) : x < (2 : ℝ) ^ (Int.log 2 x + 1) := by
  have := Int.lt_zpow_succ_log_self (b := 2) (by norm_num) x
  exact_mod_cast this

theorem flPos_pos {p : ℕ} (hp : 1 ≤ p) {x : ℝ} (hx : 0 < x) : 0 < flPos p x :=
  lt_of_lt_of_le (by positivity) (zpow_le_flPos (e := Int.log 2 x) (by unfold place; omega) (log_le_self hx))

theorem flPos_mono {p : ℕ} (hp : 1 ≤ p) {x y : ℝ} (hx : 0 < x) (h : x ≤ y) : flPos p x ≤ flPos p y := by
  have hlog : Int.log 2 x ≤ Int.log 2 y := Int.log_mono_right hx h
  rcases hlog.eq_or_lt with he | hl
  · unfold flPos place
    rw [he]
    have h2 : (0 : ℝ) < 2 ^ (Int.log 2 y - ((p : ℤ) - 1)) := by positivity
    have := nearest_mono (x := x / 2 ^ (Int.log 2 y - ((p : ℤ) - 1))) (y := y / 2 ^ (Int.log 2 y - ((p : ℤ) - 1)))
      (by gcongr)
    exact mul_le_mul_of_nonneg_right (by exact_mod_cast this) h2.le
  · have h1 : flPos p x ≤ 2 ^ Int.log 2 y := by
      refine flPos_le_zpow (by unfold place; omega) ((lt_log_succ x).le.trans ?_)
      exact zpow_le_zpow_right₀ (by norm_num) (by omega)
    exact h1.trans (zpow_le_flPos (by unfold place; omega) (log_le_self (hx.trans_le h)))

theorem log_double {x : ℝ} (hx : 0 < x) : Int.log 2 (2 * x) = Int.log 2 x + 1 := by
  apply le_antisymm
  · have h := lt_log_succ x
    have : 2 * x < (2 : ℝ) ^ (Int.log 2 x + 1 + 1) := by rw [zpow_add_one₀ (by norm_num)]; linarith
    have h2 := (Int.lt_zpow_iff_log_lt (b := 2) (by norm_num) (r := 2 * x) (x := Int.log 2 x + 1 + 1) (by linarith)).1
      (by exact_mod_cast this)
    omega
  · have h := log_le_self hx
    have : (2 : ℝ) ^ (Int.log 2 x + 1) ≤ 2 * x := by rw [zpow_add_one₀ (by norm_num)]; linarith
    exact (Int.zpow_le_iff_le_log (b := 2) (by norm_num) (r := 2 * x) (by linarith)).1 (by exact_mod_cast this)

theorem flPos_double {p : ℕ} {x : ℝ} (hx : 0 < x) : flPos p (2 * x) = 2 * flPos p x := by
  have hpl : place p (2 * x) = place p x + 1 := by unfold place; rw [log_double hx]; ring
  have h2 : (0 : ℝ) < 2 ^ place p x := by positivity
  unfold flPos
  rw [hpl, zpow_add_one₀ (by norm_num)]
  have : 2 * x / (2 ^ place p x * 2) = x / 2 ^ place p x := by field_simp
  rw [this]
  ring

theorem flPos_idem {p : ℕ} (hp : 1 ≤ p) {x : ℝ} (hx : 0 < x) : flPos p (flPos p x) = flPos p x := by
  have h2 : (0 : ℝ) < 2 ^ place p x := by positivity
  have hle : flPos p x ≤ 2 ^ (Int.log 2 x + 1) := flPos_le_zpow (by unfold place; omega) (lt_log_succ x).le
  have hge : 2 ^ Int.log 2 x ≤ flPos p x := zpow_le_flPos (by unfold place; omega) (log_le_self hx)
  have hpos := flPos_pos hp hx
  have hl1 : Int.log 2 x ≤ Int.log 2 (flPos p x) :=
    (Int.zpow_le_iff_le_log (b := 2) (by norm_num) hpos).1 (by exact_mod_cast hge)
  rcases hle.eq_or_lt with he | hl
  · have h3 : ∀ e : ℤ, flPos p ((2 : ℝ) ^ e) = 2 ^ e := by
      intro e
      have hlog : Int.log 2 ((2 : ℝ) ^ e) = e := by
        have := Int.log_zpow (R := ℝ) (b := 2) (by norm_num) e
        exact_mod_cast this
      have hs : place p ((2 : ℝ) ^ e) ≤ e := by unfold place; rw [hlog]; omega
      exact le_antisymm (flPos_le_zpow hs le_rfl) (zpow_le_flPos hs le_rfl)
    rw [he, h3]
  · have hl2 : Int.log 2 (flPos p x) < Int.log 2 x + 1 :=
      (Int.lt_zpow_iff_log_lt (b := 2) (by norm_num) hpos).1 (by exact_mod_cast hl)
    have hpl : place p (flPos p x) = place p x := by unfold place; rw [show Int.log 2 (flPos p x) = Int.log 2 x by omega]
    rw [show flPos p (flPos p x) = nearest (flPos p x / 2 ^ place p x) * 2 ^ place p x by
      conv_lhs => unfold flPos
      rw [show place p (nearest (x / 2 ^ place p x) * 2 ^ place p x) = place p x from hpl]
      rfl]
    have : flPos p x / 2 ^ place p x = (nearest (x / 2 ^ place p x) : ℤ) := by unfold flPos; field_simp
    rw [this, nearest_int]
    rfl

theorem fl_pos {p : ℕ} {x : ℝ} (hx : 0 < x) : fl p x = flPos p x := if_pos hx

theorem fl_neg {p : ℕ} {x : ℝ} (hx : x < 0) : fl p x = -flPos p (-x) := by
  unfold fl; rw [if_neg (not_lt.2 hx.le), if_pos hx]

theorem fl_zero {p : ℕ} : fl p 0 = 0 := by simp [fl]

/-- Arithmetic with `p` binary digits. -/
noncomputable def binary (p : ℕ) (hp : 1 ≤ p) : Rounding where
  rnd := fl p
  u := (1 / 2) ^ p
  u_nonneg := by positivity
  u_lt := pow_lt_one₀ (by norm_num) (by norm_num) (by omega)
  mono := by
    intro x y h
    rcases lt_trichotomy x 0 with hx | rfl | hx
    · rcases lt_trichotomy y 0 with hy | rfl | hy
      · rw [fl_neg hx, fl_neg hy]
        exact neg_le_neg (flPos_mono hp (by linarith) (by linarith))
      · rw [fl_neg hx, fl_zero]
        exact (neg_neg_of_pos (flPos_pos hp (by linarith))).le
      · rw [fl_neg hx, fl_pos hy]
        exact (neg_neg_of_pos (flPos_pos hp (by linarith))).le.trans (flPos_pos hp hy).le
    · rcases h.eq_or_lt with rfl | hy
      · exact le_rfl
      · rw [fl_zero, fl_pos hy]
        exact (flPos_pos hp hy).le
    · rw [fl_pos hx, fl_pos (hx.trans_le h)]
      exact flPos_mono hp hx h
  idem := by
    intro x
    rcases lt_trichotomy x 0 with hx | rfl | hx
    · have h := flPos_pos hp (neg_pos.2 hx)
      rw [fl_neg hx, fl_neg (neg_neg_of_pos h), neg_neg, flPos_idem hp (by linarith)]
    · rw [fl_zero, fl_zero]
    · rw [fl_pos hx, fl_pos (flPos_pos hp hx), flPos_idem hp hx]
  double := by
    intro x
    rcases lt_trichotomy x 0 with hx | rfl | hx
    · rw [fl_neg hx, fl_neg (by linarith), ← mul_neg, flPos_double (by linarith), mul_neg]
    · simp [fl_zero]
    · rw [fl_pos hx, fl_pos (by linarith), flPos_double hx]
  odd := by
    intro x
    rcases lt_trichotomy x 0 with hx | rfl | hx
    · rw [fl_neg hx, fl_pos (by linarith), neg_neg]
    · simp [fl_zero]
    · rw [fl_pos hx, fl_neg (by linarith), neg_neg]
  err := by
    intro x
    rcases lt_trichotomy x 0 with hx | rfl | hx
    · rw [fl_neg hx, abs_of_neg hx]
      have := flPos_err (p := p) (neg_pos.2 hx)
      rwa [abs_sub_comm, show -x - flPos p (-x) = -flPos p (-x) - x by ring] at this
    · simp [fl_zero]
    · rw [fl_pos hx, abs_of_pos hx]
      exact flPos_err hx

/-- `np.float64`. -/
noncomputable def float64 : Rounding := binary 53 (by norm_num)

/-- `np.float32`. -/
noncomputable def float32 : Rounding := binary 24 (by norm_num)

/-- How to evaluate: find the binary place. -/
theorem fl_eq {p : ℕ} {x : ℝ} (e n : ℤ) (hx : 0 < x) (h1 : (2 : ℝ) ^ e ≤ x) (h2 : x < 2 ^ (e + 1))
    (h3 : |x / 2 ^ (e - (p - 1)) - n| < 1 / 2) : fl p x = n * 2 ^ (e - (p - 1)) := by
  have hlog : Int.log 2 x = e := by
    have a := (Int.zpow_le_iff_le_log (b := 2) (by norm_num) hx).1 (by exact_mod_cast h1)
    have b := (Int.lt_zpow_iff_log_lt (b := 2) (by norm_num) hx).1 (by exact_mod_cast h2)
    omega
  rw [fl_pos hx]
  unfold flPos place
  rw [hlog]
  have h4 := abs_le.1 (nearest_err (x / 2 ^ (e - ((p : ℤ) - 1))))
  have h5 := abs_lt.1 h3
  have h6 : nearest (x / 2 ^ (e - ((p : ℤ) - 1))) = n := by
    have a : ((nearest (x / 2 ^ (e - ((p : ℤ) - 1))) : ℤ) : ℝ) < n + 1 := by linarith [h4.2, h5.2]
    have b : (n : ℝ) < (nearest (x / 2 ^ (e - ((p : ℤ) - 1))) : ℤ) + 1 := by linarith [h4.1, h5.1]
    have a' : nearest (x / 2 ^ (e - ((p : ℤ) - 1))) < n + 1 := by exact_mod_cast a
    have b' : n < nearest (x / 2 ^ (e - ((p : ℤ) - 1))) + 1 := by exact_mod_cast b
    omega
  rw [h6]

end Verif.Round
