import Verif.Misc.Labels
import Mathlib.Tactic.Ring
import Mathlib.Tactic.FieldSimp

/-! # Properties of labels (C71) -/

namespace Verif.Misc

theorem splitTimes_none (l : List Char) (h : ∀ c ∈ l, c ≠ '⠀') : splitTimes l = none := by
  induction l with
  | nil => rfl
  | cons c l ih =>
    have hc : c ≠ '⠀' := h c (by simp)
    simp [splitTimes, hc, ih (fun c hc => h c (by simp [hc]))]

theorem splitTimes_some (l p : List Char) (h : ∀ c ∈ l, c ≠ '⠀') :
    splitTimes (l ++ '⠀' :: '✕' :: '⠀' :: p) = some (l, p) := by
  induction l with
  | nil => simp [splitTimes]
  | cons c l ih =>
    have hc : c ≠ '⠀' := h c (by simp)
    simp [splitTimes, hc, ih (fun c hc => h c (by simp [hc]))]

theorem supInt_supText (e : ℤ) (h1 : -19 ≤ e) (h2 : e ≤ 19) (h0 : e ≠ 0) : supInt (supText e) = some e := by
  interval_cases e <;> first | exact absurd rfl h0 | rfl

theorem supText_blank (e : ℤ) (h1 : -19 ≤ e) (h2 : e ≤ 19) : ∀ c ∈ supText e, c ≠ '⠀' := by
  interval_cases e <;> decide

theorem power_supText (e : ℤ) (h1 : -19 ≤ e) (h2 : e ≤ 19) (h0 : e ≠ 0) :
    power ('1' :: '0' :: supText e) = some (10 ^ e) := by
  simp [power, supInt_supText e h1 h2 h0]

/-- The mantissa. -/
def mantissa (neg : Bool) (d0 d1 d2 : Fin 10) : List Char :=
  (if neg then ['-'] else []) ++ [digit d0, '.', digit d1, digit d2]

theorem mantissa_blank (neg : Bool) (d0 d1 d2 : Fin 10) : ∀ c ∈ mantissa neg d0 d1 d2, c ≠ '⠀' := by
  intro c hc
  unfold mantissa at hc
  simp only [List.mem_append, List.mem_cons, List.not_mem_nil, or_false] at hc
  rcases hc with hc | rfl | rfl | rfl | rfl
  · cases neg <;> simp at hc
    subst hc; decide
  · exact (digit_ne_e _).2.2.2
  · decide
  · exact (digit_ne_e _).2.2.2
  · exact (digit_ne_e _).2.2.2

theorem unsigned_digits (d0 d1 d2 : Fin 10) :
    unsigned [digit d0, '.', digit d1, digit d2] = some (((d0 : ℕ) : ℚ) + (((d1 : ℕ) : ℚ) * 10 + ((d2 : ℕ) : ℚ)) / 100) := by
  simp only [unsigned, digitVal_digit, decimal, Option.bind_some, Option.map_some, List.length_cons, List.length_nil]
  congr 1
  push_cast
  ring

theorem number_mantissa (neg : Bool) (d0 d1 d2 : Fin 10) :
    number (mantissa neg d0 d1 d2) =
      some ((if neg then (-1 : ℚ) else 1) * (((d0 : ℕ) : ℚ) + (((d1 : ℕ) : ℚ) * 10 + ((d2 : ℕ) : ℚ)) / 100)) := by
  cases neg with
  | true => simp only [mantissa, number, unsigned_digits, if_true, List.cons_append, List.nil_append, Option.map_some, neg_one_mul]
  | false =>
    have h := (digit_ne_e d0).2.2.1
    simp only [mantissa, Bool.false_eq_true, if_false, List.nil_append]
    unfold number
    split
    · rename_i heq; simp at heq; exact absurd heq.1 h
    · rw [unsigned_digits]; simp

theorem power_mantissa (neg : Bool) (d0 d1 d2 : Fin 10) : power (mantissa neg d0 d1 d2) = none := by
  cases neg <;> simp [mantissa, power]

theorem printed_eq (neg : Bool) (d0 d1 d2 : Fin 10) (e : ℤ) :
    printed neg d0 d1 d2 e = mantissa neg d0 d1 d2 ++ expText e := by
  simp [printed, mantissa, expText]

theorem eTo10_printed (neg : Bool) (d0 d1 d2 : Fin 10) (e : ℤ) :
    ∃ f, 10 ≤ f ∧ eTo10 (printed neg d0 d1 d2 e) = scan (f + 20) (mantissa neg d0 d1 d2) (expText e) true := by
  have h0 := digit_ne_e d0
  have h1 := digit_ne_e d1
  have h2 := digit_ne_e d2
  rw [printed_eq]
  cases neg with
  | true =>
    refine ⟨12, by decide, ?_⟩
    unfold eTo10
    show scan (32 + 1 + 1 + 1 + 1 + 1) [] ('-' :: digit d0 :: '.' :: digit d1 :: digit d2 :: expText e) true = _
    rw [scan_skip _ _ _ _ (by decide), scan_skip _ _ _ _ ⟨h0.1, h0.2.1⟩, scan_skip _ _ _ _ (by decide),
      scan_skip _ _ _ _ ⟨h1.1, h1.2.1⟩, scan_skip _ _ _ _ ⟨h2.1, h2.2.1⟩]
    rfl
  | false =>
    refine ⟨10, by decide, ?_⟩
    unfold eTo10
    show scan (30 + 1 + 1 + 1 + 1) [] (digit d0 :: '.' :: digit d1 :: digit d2 :: expText e) true = _
    rw [scan_skip _ _ _ _ ⟨h0.1, h0.2.1⟩, scan_skip _ _ _ _ (by decide),
      scan_skip _ _ _ _ ⟨h1.1, h1.2.1⟩, scan_skip _ _ _ _ ⟨h2.1, h2.2.1⟩]
    rfl

theorem finish_mantissa (neg : Bool) (d0 d1 d2 : Fin 10) (p : List Char) :
    finish (mantissa neg d0 d1 d2 ++ ('⠀' :: '✕' :: '⠀' :: p)) =
      .ok (if neg = false ∧ d0 = 1 ∧ d1 = 0 ∧ d2 = 0 then p else mantissa neg d0 d1 d2 ++ ('⠀' :: '✕' :: '⠀' :: p)) := by
  cases neg with
  | true => simp [mantissa, finish]
  | false =>
    simp only [mantissa, Bool.false_eq_true, if_false, List.nil_append, List.cons_append, finish, digit_one,
      digit_zero, if_true, true_and]
    by_cases h0 : d0 = 1
    · by_cases h1 : d1 = 0
      · by_cases h2 : d2 = 0 <;> simp [h0, h1, h2]
      · simp [h0, h1]
    · simp [h0]

/-- What the label looks like. -/
theorem eTo10_eq (neg : Bool) (d0 d1 d2 : Fin 10) (e : ℤ) (h1 : -19 ≤ e) (h2 : e ≤ 19) :
    eTo10 (printed neg d0 d1 d2 e) = .ok (
      if e = 0 then mantissa neg d0 d1 d2
      else if neg = false ∧ d0 = 1 ∧ d1 = 0 ∧ d2 = 0 then '1' :: '0' :: supText e
      else mantissa neg d0 d1 d2 ++ ('⠀' :: '✕' :: '⠀' :: '1' :: '0' :: supText e)) := by
  obtain ⟨f, -, hf⟩ := eTo10_printed neg d0 d1 d2 e
  rw [hf]
  by_cases h0 : e = 0
  · subst h0
    rw [scan_zero, if_pos rfl]
  · rw [scan_exp _ _ _ h1 h2 h0, if_neg h0]
    exact finish_mantissa neg d0 d1 d2 _

/-- **C71** For every number printed with two decimals and an exponent from -19 to 19, of either sign, the label
made from it is read as the same number. -/
theorem C71_same_number (neg : Bool) (d0 d1 d2 : Fin 10) (e : ℤ) (h1 : -19 ≤ e) (h2 : e ≤ 19) :
    ∃ label, eTo10 (printed neg d0 d1 d2 e) = .ok label ∧ read label = some (value neg d0 d1 d2 e) := by
  refine ⟨_, eTo10_eq neg d0 d1 d2 e h1 h2, ?_⟩
  by_cases h0 : e = 0
  · subst h0
    rw [if_pos rfl]
    simp only [read, splitTimes_none _ (mantissa_blank neg d0 d1 d2), power_mantissa, number_mantissa, value]
    simp
  · rw [if_neg h0]
    by_cases hm : neg = false ∧ d0 = 1 ∧ d1 = 0 ∧ d2 = 0
    · rw [if_pos hm]
      obtain ⟨rfl, rfl, rfl, rfl⟩ := hm
      have hb : ∀ c ∈ '1' :: '0' :: supText e, c ≠ '⠀' := by
        intro c hc
        simp only [List.mem_cons] at hc
        rcases hc with rfl | rfl | hc
        · decide
        · decide
        · exact supText_blank e h1 h2 c hc
      simp only [read, splitTimes_none _ hb, power_supText e h1 h2 h0, value]
      simp
    · rw [if_neg hm]
      simp only [read, splitTimes_some _ _ (mantissa_blank neg d0 d1 d2), number_mantissa,
        power_supText e h1 h2 h0, Option.bind_some, Option.map_some, value]

/-- **C71** A leading `1.00 ✕` is dropped: a power of ten is shown as just that, with nothing in front. -/
theorem C71_power_of_ten (e : ℤ) (h1 : -19 ≤ e) (h2 : e ≤ 19) (h0 : e ≠ 0) :
    ∃ sup, eTo10 (printed false 1 0 0 e) = .ok ('1' :: '0' :: sup) ∧ supInt sup = some e := by
  refine ⟨supText e, ?_, supInt_supText e h1 h2 h0⟩
  rw [eTo10_eq _ _ _ _ _ h1 h2, if_neg h0, if_pos ⟨rfl, rfl, rfl, rfl⟩]

/-- **C71** Two-digit exponents outside of the supported range are refused. -/
theorem C71_large_exponents (neg : Bool) (d0 d1 d2 : Fin 10) (e : ℤ) (h1 : 20 ≤ e.natAbs) (h2 : e.natAbs ≤ 99) :
    eTo10 (printed neg d0 d1 d2 e) = .error .assertion := by
  obtain ⟨f, -, hf⟩ := eTo10_printed neg d0 d1 d2 e
  rw [hf]
  exact scan_large _ _ e h1 h2

/-- Three-digit exponents are outside of the supported range too, but they are not refused: the label of
`2.50E+100` is `2.50 ✕ 10¹⁰0`. -/
theorem C71_three_digits_not_refused :
    eTo10 "2.50E+100".toList = .ok "2.50⠀✕⠀10¹⁰0".toList := by decide

example : printed false 2 8 8 (-19) = "2.88E-19".toList ∧ eTo10 "2.88E-19".toList = .ok "2.88⠀✕⠀10⁻¹⁹".toList ∧
    value false 2 8 8 (-19) = 288 / 100 / 10 ^ 19 := by
  refine ⟨by decide, by decide, ?_⟩
  have h : ((8 : Fin 10) : ℕ) = 8 := rfl
  have h' : ((2 : Fin 10) : ℕ) = 2 := rfl
  norm_num [value, h, h']

example : eTo10 "1.00E+12".toList = .ok "10¹²".toList ∧ eTo10 "-1.00E+05".toList = .ok "-1.00⠀✕⠀10⁵".toList ∧
    eTo10 "7.25E+00".toList = .ok "7.25".toList := by decide

end Verif.Misc
