import Mathlib.Data.Rat.Defs
import Mathlib.Algebra.Order.Field.Rat
import Mathlib.Tactic.NormNum
import Mathlib.Tactic.IntervalCases
import Mathlib.Tactic.FinCases

/-!
# Labels of plots (C71)

`eTo10`, cosmic_profiles/common/python_routines.py:14-167.
-/

namespace Verif.Misc

/-- Exceptions of `eTo10`. -/
inductive Err | type | index | assertion
  deriving DecidableEq, Repr

/-! ## Model -/

/-- Replacement of the two digits of a positive exponent, lines 48-95: the new characters, and whether
the last character of the text is kept. -/
def plusDigits (x y : Char) : Except Err (Char × Char × Bool) :=
  if x = '0' ∧ y = '1' then .ok ('¹', y, false)
  else if x = '0' ∧ y = '2' then .ok ('²', y, false)
  else if x = '0' ∧ y = '3' then .ok ('³', y, false)
  else if x = '0' ∧ y = '4' then .ok ('⁴', y, false)
  else if x = '0' ∧ y = '5' then .ok ('⁵', y, false)
  else if x = '0' ∧ y = '6' then .ok ('⁶', y, false)
  else if x = '0' ∧ y = '7' then .ok ('⁷', y, false)
  else if x = '0' ∧ y = '8' then .ok ('⁸', y, false)
  else if x = '0' ∧ y = '9' then .ok ('⁹', y, false)
  else if x = '1' ∧ y = '0' then .ok ('¹', '⁰', true)
  else if x = '1' ∧ y = '1' then .ok ('¹', '¹', true)
  else if x = '1' ∧ y = '2' then .ok ('¹', '²', true)
  else if x = '1' ∧ y = '3' then .ok ('¹', '³', true)
  else if x = '1' ∧ y = '4' then .ok ('¹', '⁴', true)
  else if x = '1' ∧ y = '5' then .ok ('¹', '⁵', true)
  else if x = '1' ∧ y = '6' then .ok ('¹', '⁶', true)
  else if x = '1' ∧ y = '7' then .ok ('¹', '⁷', true)
  else if x = '1' ∧ y = '8' then .ok ('¹', '⁸', true)
  else if x = '1' ∧ y = '9' then .ok ('¹', '⁹', true)
  else .error .assertion

/-- The same for a negative exponent, lines 107-154: the new second digit, and what is appended to the text
(the first digit becomes the minus sign). -/
def minusDigits (x y : Char) : Except Err (Char × List Char) :=
  if x = '0' ∧ y = '1' then .ok ('¹', [])
  else if x = '0' ∧ y = '2' then .ok ('²', [])
  else if x = '0' ∧ y = '3' then .ok ('³', [])
  else if x = '0' ∧ y = '4' then .ok ('⁴', [])
  else if x = '0' ∧ y = '5' then .ok ('⁵', [])
  else if x = '0' ∧ y = '6' then .ok ('⁶', [])
  else if x = '0' ∧ y = '7' then .ok ('⁷', [])
  else if x = '0' ∧ y = '8' then .ok ('⁸', [])
  else if x = '0' ∧ y = '9' then .ok ('⁹', [])
  else if x = '1' ∧ y = '0' then .ok ('¹', ['⁰'])
  else if x = '1' ∧ y = '1' then .ok ('¹', ['¹'])
  else if x = '1' ∧ y = '2' then .ok ('¹', ['²'])
  else if x = '1' ∧ y = '3' then .ok ('¹', ['³'])
  else if x = '1' ∧ y = '4' then .ok ('¹', ['⁴'])
  else if x = '1' ∧ y = '5' then .ok ('¹', ['⁵'])
  else if x = '1' ∧ y = '6' then .ok ('¹', ['⁶'])
  else if x = '1' ∧ y = '7' then .ok ('¹', ['⁷'])
  else if x = '1' ∧ y = '8' then .ok ('¹', ['⁸'])
  else if x = '1' ∧ y = '9' then .ok ('¹', ['⁹'])
  else .error .assertion

/-- Lines 164-166. -/
def finish (l : List Char) : Except Err (List Char) :=
  match l with
  | [] => .error .index
  | c0 :: l1 =>
    if c0 = '1' then
      match l1 with
      | [] => .error .index
      | c1 :: l2 =>
        if c1 = '.' then
          match l2 with
          | [] => .error .index
          | c2 :: l3 =>
            if c2 = '0' then
              match l3 with
              | [] => .error .index
              | c3 :: _ => if c3 = '0' then .ok (l.drop 7) else .ok l
            else .ok l
        else .ok l
    else .ok l

/-- The loop, lines 29-163.  `pre` are the characters before position `i`, `rest` those from there on; `drop`
is `drop_last_char`, which is never set back.  One unit of `fuel` for each step; running out of it never happens
for the texts considered. -/
def scan (fuel : Nat) (pre rest : List Char) (drop : Bool) : Except Err (List Char) :=
  match fuel with
  | 0 => .error .index
  | fuel + 1 =>
    match rest with
    | [] => finish pre
    | c :: rest' =>
      if c = 'e' ∨ c = 'E' then
        match rest' with
        | sgn :: x :: y :: tail =>
          if x = '0' ∧ y = '0' then .ok pre
          else if sgn = '+' then
            match plusDigits x y with
            | .error e => .error e
            | .ok (x', y', keep) =>
              let drop' := drop && !keep
              let new := '⠀' :: '✕' :: '⠀' :: '1' :: '0' :: x' :: y' :: tail
              let new := if drop' then new.dropLast else new
              match new with
              | [] => finish pre
              | b :: new' => scan fuel (pre ++ [b]) new' drop'
          else if sgn = '-' then
            match minusDigits x y with
            | .error e => .error e
            | .ok (y', app) =>
              scan fuel (pre ++ ['⠀']) ('✕' :: '⠀' :: '1' :: '0' :: '⁻' :: y' :: tail ++ app) drop
          else .error .assertion
        | _ => .error .index
      else scan fuel (pre ++ [c]) rest' drop

/-- `eTo10`.  Line 37, `st.split("E", 1)[0]`, is the text before the first `e` or `E`: no earlier one of the same
kind, because it would have been replaced. -/
def eTo10 (st : List Char) : Except Err (List Char) := scan (3 * st.length + 10) [] st true

/-! ## Specification -/

/-- The digits. -/
def digit : Fin 10 → Char := fun d => ['0', '1', '2', '3', '4', '5', '6', '7', '8', '9'][d]

/-- Value of a digit. -/
def digitVal (c : Char) : Option ℕ :=
  if c = '0' then some 0 else if c = '1' then some 1 else if c = '2' then some 2 else if c = '3' then some 3
  else if c = '4' then some 4 else if c = '5' then some 5 else if c = '6' then some 6 else if c = '7' then some 7
  else if c = '8' then some 8 else if c = '9' then some 9 else none

/-- Value of a superscript digit. -/
def supVal (c : Char) : Option ℕ :=
  if c = '⁰' then some 0 else if c = '¹' then some 1 else if c = '²' then some 2 else if c = '³' then some 3
  else if c = '⁴' then some 4 else if c = '⁵' then some 5 else if c = '⁶' then some 6 else if c = '⁷' then some 7
  else if c = '⁸' then some 8 else if c = '⁹' then some 9 else none

/-- Decimal digits, most significant first. -/
def decimal (val : Char → Option ℕ) : List Char → ℕ → Option ℕ
  | [], acc => some acc
  | c :: l, acc => (val c).bind fun d => decimal val l (10 * acc + d)

/-- A superscript integer. -/
def supInt : List Char → Option ℤ
  | [] => none
  | '⁻' :: l => if l = [] then none else (decimal supVal l 0).map fun (n : ℕ) => -(n : ℤ)
  | l => (decimal supVal l 0).map fun (n : ℕ) => (n : ℤ)

/-- A decimal number `d.dd…`. -/
def unsigned : List Char → Option ℚ
  | c :: '.' :: l => (digitVal c).bind fun d => (decimal digitVal l 0).map fun (n : ℕ) => (d : ℚ) + (n : ℚ) / 10 ^ l.length
  | _ => none

/-- A decimal number with or without a sign. -/
def number : List Char → Option ℚ
  | '-' :: l => (unsigned l).map fun x => -x
  | l => unsigned l

/-- A power `10ⁿ`. -/
def power : List Char → Option ℚ
  | '1' :: '0' :: l => (supInt l).map fun e => (10 : ℚ) ^ e
  | _ => none

/-- Split at the multiplication sign with its blanks. -/
def splitTimes : List Char → Option (List Char × List Char)
  | [] => none
  | c :: l =>
    if (c :: l).take 3 = ['⠀', '✕', '⠀'] then some ([], (c :: l).drop 3)
    else (splitTimes l).map fun p => (c :: p.1, p.2)

/-- The number a reader sees in a label: `m`, `m ✕ 10ⁿ` or `10ⁿ`. -/
def read (l : List Char) : Option ℚ :=
  match splitTimes l with
  | some (m, p) => (number m).bind fun x => (power p).map fun y => x * y
  | none => match power l with
    | some y => some y
    | none => number l

/-- A number as printed by `'{:.2E}'`, with a two-digit exponent. -/
def printed (neg : Bool) (d0 d1 d2 : Fin 10) (e : ℤ) : List Char :=
  (if neg then ['-'] else []) ++ [digit d0, '.', digit d1, digit d2, 'E', if e < 0 then '-' else '+',
    digit ⟨e.natAbs / 10 % 10, by omega⟩, digit ⟨e.natAbs % 10, by omega⟩]

/-- Its value. -/
def value (neg : Bool) (d0 d1 d2 : Fin 10) (e : ℤ) : ℚ :=
  (if neg then -1 else 1) * ((d0 : ℕ) + ((d1 : ℕ) * 10 + (d2 : ℕ)) / 100) * 10 ^ e

/-! ## Proofs -/

theorem digitVal_digit (d : Fin 10) : digitVal (digit d) = some (d : ℕ) := by
  revert d; decide

theorem digit_ne_e (d : Fin 10) : digit d ≠ 'e' ∧ digit d ≠ 'E' ∧ digit d ≠ '-' ∧ digit d ≠ '⠀' := by
  revert d; decide

theorem digit_one (d : Fin 10) : digit d = '1' ↔ d = 1 := by revert d; decide
theorem digit_zero (d : Fin 10) : digit d = '0' ↔ d = 0 := by revert d; decide

/-- Text of the power of ten with a two-digit exponent. -/
def supText (e : ℤ) : List Char :=
  if e = 0 then [] else
  (if e < 0 then ['⁻'] else []) ++
  (if 10 ≤ e.natAbs then ['¹'] else []) ++
  [['⁰', '¹', '²', '³', '⁴', '⁵', '⁶', '⁷', '⁸', '⁹'][e.natAbs % 10]'(by simp; omega)]

theorem scan_skip (f : ℕ) (pre rest : List Char) (c : Char) (h : c ≠ 'e' ∧ c ≠ 'E') (b : Bool) :
    scan (f + 1) pre (c :: rest) b = scan f (pre ++ [c]) rest b := by
  simp [scan, h.1, h.2]

/-- The four characters of an exponent. -/
def expText (e : ℤ) : List Char :=
  ['E', if e < 0 then '-' else '+', digit ⟨e.natAbs / 10 % 10, by omega⟩, digit ⟨e.natAbs % 10, by omega⟩]

/-- Not the letter which announces an exponent. -/
def NotE (c : Char) : Prop := c ≠ 'e' ∧ c ≠ 'E'

instance (c : Char) : Decidable (NotE c) := by unfold NotE; infer_instance

theorem scan_all (l : List Char) (hl : ∀ c ∈ l, NotE c) (f : ℕ) (pre : List Char) (b : Bool) :
    scan (f + l.length + 1) pre l b = finish (pre ++ l) := by
  induction l generalizing f pre with
  | nil => simp [scan]
  | cons c l ih =>
    rw [List.length_cons, ← Nat.add_assoc, scan_skip _ _ _ _ (hl c (by simp)),
      ih (fun c hc => hl c (by simp [hc]))]
    simp

theorem scan_plus (f : ℕ) (pre : List Char) (x y x' y' : Char) (keep : Bool) (h0 : ¬ (x = '0' ∧ y = '0'))
    (h : plusDigits x y = .ok (x', y', keep)) (hx : NotE x') (hy : NotE y') :
    scan (f + 20) pre ['E', '+', x, y] true =
      finish (pre ++ (['⠀', '✕', '⠀', '1', '0', x'] ++ if keep then [y'] else [])) := by
  rw [scan]
  simp only [or_true, if_true, if_neg h0, h]
  cases keep with
  | true =>
    have := scan_all ['✕', '⠀', '1', '0', x', y'] (by
      intro c hc
      simp only [List.mem_cons, List.not_mem_nil, or_false] at hc
      rcases hc with rfl | rfl | rfl | rfl | rfl | rfl <;> first | assumption | decide) (f + 12) (pre ++ ['⠀']) false
    simpa using this
  | false =>
    have := scan_all ['✕', '⠀', '1', '0', x'] (by
      intro c hc
      simp only [List.mem_cons, List.not_mem_nil, or_false] at hc
      rcases hc with rfl | rfl | rfl | rfl | rfl <;> first | assumption | decide) (f + 13) (pre ++ ['⠀']) true
    simpa using this

theorem scan_minus (f : ℕ) (pre : List Char) (x y y' : Char) (app : List Char) (h0 : ¬ (x = '0' ∧ y = '0'))
    (h : minusDigits x y = .ok (y', app)) (hy : NotE y') (ha : ∀ c ∈ app, NotE c) (hl : app.length ≤ 1) :
    scan (f + 20) pre ['E', '-', x, y] true = finish (pre ++ (['⠀', '✕', '⠀', '1', '0', '⁻', y'] ++ app)) := by
  rw [scan]
  simp only [or_true, if_true, if_neg h0, h]
  have := scan_all (['✕', '⠀', '1', '0', '⁻', y'] ++ app) (by
      intro c hc
      simp only [List.mem_cons, List.mem_append, List.not_mem_nil, or_false] at hc
      rcases hc with (rfl | rfl | rfl | rfl | rfl | rfl) | hc <;> first | assumption | decide | exact ha c hc)
      (f + (12 - app.length)) (pre ++ ['⠀']) true
  have e : f + (12 - app.length) + (['✕', '⠀', '1', '0', '⁻', y'] ++ app).length + 1 = f + 19 := by
    simp only [List.length_append, List.length_cons, List.length_nil]; omega
  rw [e] at this
  simpa using this

theorem scan_exp (pre : List Char) (f : ℕ) (e : ℤ) (h1 : -19 ≤ e) (h2 : e ≤ 19) (h0 : e ≠ 0) :
    scan (f + 20) pre (expText e) true = finish (pre ++ (['⠀', '✕', '⠀', '1', '0'] ++ supText e)) := by
  interval_cases e
  · exact scan_minus f pre '1' '9' '¹' ['⁹'] (by decide) rfl (by decide) (by decide) (by decide)
  · exact scan_minus f pre '1' '8' '¹' ['⁸'] (by decide) rfl (by decide) (by decide) (by decide)
  · exact scan_minus f pre '1' '7' '¹' ['⁷'] (by decide) rfl (by decide) (by decide) (by decide)
  · exact scan_minus f pre '1' '6' '¹' ['⁶'] (by decide) rfl (by decide) (by decide) (by decide)
  · exact scan_minus f pre '1' '5' '¹' ['⁵'] (by decide) rfl (by decide) (by decide) (by decide)
  · exact scan_minus f pre '1' '4' '¹' ['⁴'] (by decide) rfl (by decide) (by decide) (by decide)
  · exact scan_minus f pre '1' '3' '¹' ['³'] (by decide) rfl (by decide) (by decide) (by decide)
  · exact scan_minus f pre '1' '2' '¹' ['²'] (by decide) rfl (by decide) (by decide) (by decide)
  · exact scan_minus f pre '1' '1' '¹' ['¹'] (by decide) rfl (by decide) (by decide) (by decide)
  · exact scan_minus f pre '1' '0' '¹' ['⁰'] (by decide) rfl (by decide) (by decide) (by decide)
  · exact scan_minus f pre '0' '9' '⁹' [] (by decide) rfl (by decide) (by decide) (by decide)
  · exact scan_minus f pre '0' '8' '⁸' [] (by decide) rfl (by decide) (by decide) (by decide)
  · exact scan_minus f pre '0' '7' '⁷' [] (by decide) rfl (by decide) (by decide) (by decide)
  · exact scan_minus f pre '0' '6' '⁶' [] (by decide) rfl (by decide) (by decide) (by decide)
  · exact scan_minus f pre '0' '5' '⁵' [] (by decide) rfl (by decide) (by decide) (by decide)
  · exact scan_minus f pre '0' '4' '⁴' [] (by decide) rfl (by decide) (by decide) (by decide)
  · exact scan_minus f pre '0' '3' '³' [] (by decide) rfl (by decide) (by decide) (by decide)
  · exact scan_minus f pre '0' '2' '²' [] (by decide) rfl (by decide) (by decide) (by decide)
  · exact scan_minus f pre '0' '1' '¹' [] (by decide) rfl (by decide) (by decide) (by decide)
  · exact absurd rfl h0
  · exact scan_plus f pre '0' '1' '¹' '1' false (by decide) rfl (by decide) (by decide)
  · exact scan_plus f pre '0' '2' '²' '2' false (by decide) rfl (by decide) (by decide)
  · exact scan_plus f pre '0' '3' '³' '3' false (by decide) rfl (by decide) (by decide)
  · exact scan_plus f pre '0' '4' '⁴' '4' false (by decide) rfl (by decide) (by decide)
  · exact scan_plus f pre '0' '5' '⁵' '5' false (by decide) rfl (by decide) (by decide)
  · exact scan_plus f pre '0' '6' '⁶' '6' false (by decide) rfl (by decide) (by decide)
  · exact scan_plus f pre '0' '7' '⁷' '7' false (by decide) rfl (by decide) (by decide)
  · exact scan_plus f pre '0' '8' '⁸' '8' false (by decide) rfl (by decide) (by decide)
  · exact scan_plus f pre '0' '9' '⁹' '9' false (by decide) rfl (by decide) (by decide)
  · exact scan_plus f pre '1' '0' '¹' '⁰' true (by decide) rfl (by decide) (by decide)
  · exact scan_plus f pre '1' '1' '¹' '¹' true (by decide) rfl (by decide) (by decide)
  · exact scan_plus f pre '1' '2' '¹' '²' true (by decide) rfl (by decide) (by decide)
  · exact scan_plus f pre '1' '3' '¹' '³' true (by decide) rfl (by decide) (by decide)
  · exact scan_plus f pre '1' '4' '¹' '⁴' true (by decide) rfl (by decide) (by decide)
  · exact scan_plus f pre '1' '5' '¹' '⁵' true (by decide) rfl (by decide) (by decide)
  · exact scan_plus f pre '1' '6' '¹' '⁶' true (by decide) rfl (by decide) (by decide)
  · exact scan_plus f pre '1' '7' '¹' '⁷' true (by decide) rfl (by decide) (by decide)
  · exact scan_plus f pre '1' '8' '¹' '⁸' true (by decide) rfl (by decide) (by decide)
  · exact scan_plus f pre '1' '9' '¹' '⁹' true (by decide) rfl (by decide) (by decide)

theorem scan_zero (pre : List Char) (f : ℕ) : scan (f + 1) pre (expText 0) true = .ok pre := by
  simp [scan, expText, digit]

theorem scan_large (pre : List Char) (f : ℕ) (e : ℤ) (h1 : 20 ≤ e.natAbs) (h2 : e.natAbs ≤ 99) :
    scan (f + 1) pre (expText e) true = .error .assertion := by
  have hx : ∀ a : ℕ, 20 ≤ a → a ≤ 99 → ∃ x y : Char, digit ⟨a / 10 % 10, by omega⟩ = x ∧ digit ⟨a % 10, by omega⟩ = y ∧
      x ≠ '0' ∧ x ≠ '1' := by
    intro a h1 h2
    refine ⟨_, _, rfl, rfl, ?_, ?_⟩
    · rw [Ne, digit_zero]; intro h; have := congrArg Fin.val h; simp at this; omega
    · rw [Ne, digit_one]; intro h; have := congrArg Fin.val h; simp at this; omega
  obtain ⟨x, y, hx', hy', n0, n1⟩ := hx _ h1 h2
  unfold expText
  rw [hx', hy']
  by_cases he : e < 0
  · simp [scan, he, n0, n1, minusDigits]
  · simp [scan, he, n0, n1, plusDigits]

end Verif.Misc
