import Verif.Plots.Model
import Verif.Stats.Model
import Mathlib.Data.List.Basic
import Mathlib.Tactic.NormNum
import Mathlib.Tactic.Linarith
import Mathlib.Tactic.IntervalCases

/-!
# Every picture has its own file (C120)
-/

namespace Verif.Plots

/-! ## Formatting -/

theorem roundEven_near (x : ℝ) (hx : 0 ≤ x) : |(roundEven x : ℝ) - x| ≤ 1 / 2 := by
  have h1 := Nat.floor_le hx
  have h2 := Nat.lt_floor_add_one x
  unfold roundEven
  simp only
  rw [abs_le]
  split
  · constructor <;> linarith
  · split
    · push_cast; constructor <;> linarith
    · split
      · constructor <;> linarith
      · push_cast; constructor <;> linarith

theorem digitChar_inj : ∀ a < 10, ∀ b < 10, Nat.digitChar a = Nat.digitChar b → a = b := by decide

theorem digitChar_ne : ∀ a < 10, Nat.digitChar a ≠ '_' ∧ Nat.digitChar a ≠ '-' := by decide

theorem toDigits_inj (a b : Nat) (h : Nat.toDigits 10 a = Nat.toDigits 10 b) : a = b := by
  induction a using Nat.strong_induction_on generalizing b with
  | _ a ih =>
    rw [Nat.toDigits_eq_if (by norm_num), Nat.toDigits_eq_if (n := b) (by norm_num)] at h
    by_cases ha : a < 10 <;> by_cases hb : b < 10
    · rw [if_pos ha, if_pos hb] at h
      exact digitChar_inj a ha b hb (List.cons.inj h).1
    · rw [if_pos ha, if_neg hb] at h
      have := congrArg List.length h
      have h2 := Nat.length_toDigits_pos (b := 10) (n := b / 10)
      simp at this
    · rw [if_neg ha, if_pos hb] at h
      have := congrArg List.length h
      have h2 := Nat.length_toDigits_pos (b := 10) (n := a / 10)
      simp at this
    · rw [if_neg ha, if_neg hb] at h
      obtain ⟨h1, h2⟩ := List.append_inj' h rfl
      have e1 := ih (a / 10) (by omega) _ h1
      have e2 := digitChar_inj _ (Nat.mod_lt _ (by norm_num)) _ (Nat.mod_lt _ (by norm_num)) (List.cons.inj h2).1
      omega

theorem toDigits_ne {n : Nat} {c : Char} (hc : c ∈ Nat.toDigits 10 n) : c ≠ '_' ∧ c ≠ '-' := by
  have := Nat.isDigit_of_mem_toDigits (by norm_num) (by norm_num) hc
  constructor <;> (rintro rfl; revert this; decide)

/-- The two decimals determine the number up to one hundredth. -/
theorem fixed2_inj (x y : ℝ) (h : fixed2 x = fixed2 y) : |x - y| ≤ 1 / 100 := by
  unfold fixed2 at h
  simp only at h
  set k := roundEven (100 * |x|) with hk
  set l := roundEven (100 * |y|) with hl
  have nk := roundEven_near (100 * |x|) (by positivity)
  have nl := roundEven_near (100 * |y|) (by positivity)
  rw [← hk] at nk
  rw [← hl] at nl
  have hkl : (x < 0 ↔ y < 0) ∧ k = l := by
    have body : ∀ {a b : List Char} {k l : Nat}, a ++ (Nat.toDigits 10 (k / 100) ++
        ['.', (k / 10 % 10).digitChar, (k % 10).digitChar]) = b ++ (Nat.toDigits 10 (l / 100) ++
        ['.', (l / 10 % 10).digitChar, (l % 10).digitChar]) → a ++ Nat.toDigits 10 (k / 100) =
          b ++ Nat.toDigits 10 (l / 100) ∧ k / 10 % 10 = l / 10 % 10 ∧ k % 10 = l % 10 := by
      intro a b k l h
      rw [← List.append_assoc, ← List.append_assoc] at h
      obtain ⟨h1, h2⟩ := List.append_inj' h rfl
      simp only [List.cons.injEq, and_true, true_and] at h2
      exact ⟨h1, digitChar_inj _ (Nat.mod_lt _ (by norm_num)) _ (Nat.mod_lt _ (by norm_num)) h2.1,
        digitChar_inj _ (Nat.mod_lt _ (by norm_num)) _ (Nat.mod_lt _ (by norm_num)) h2.2⟩
    obtain ⟨h1, h2, h3⟩ := body h
    have first : ∀ (n : Nat) (z : List Char), Nat.toDigits 10 n ≠ '-' :: z := by
      intro n z hz
      exact (toDigits_ne (n := n) (c := '-') (by rw [hz]; exact List.mem_cons_self)).2 rfl
    by_cases hx : x < 0 <;> by_cases hy : y < 0
    · rw [if_pos hx, if_pos hy] at h1
      have := toDigits_inj _ _ (List.append_cancel_left h1)
      exact ⟨by simp [hx, hy], by omega⟩
    · rw [if_pos hx, if_neg hy] at h1
      exact absurd h1.symm (first _ _)
    · rw [if_neg hx, if_pos hy] at h1
      exact absurd h1 (first _ _)
    · rw [if_neg hx, if_neg hy] at h1
      have := toDigits_inj _ _ (List.append_cancel_left h1)
      exact ⟨by simp [hx, hy], by omega⟩
  obtain ⟨hs, he⟩ := hkl
  rw [he] at nk
  rw [abs_le] at nk nl ⊢
  by_cases hx : x < 0
  · have hy := hs.1 hx
    rw [abs_of_neg hx] at nk
    rw [abs_of_neg hy] at nl
    constructor <;> linarith
  · have hy : ¬ y < 0 := fun h => hx (hs.2 h)
    rw [abs_of_nonneg (not_lt.1 hx)] at nk
    rw [abs_of_nonneg (not_lt.1 hy)] at nl
    constructor <;> linarith

theorem fixed2_no_underscore (x : ℝ) : '_' ∉ fixed2 x := by
  unfold fixed2
  simp only [List.mem_append, List.mem_cons, List.not_mem_nil, or_false, not_or]
  refine ⟨by split <;> simp, fun h => (toDigits_ne h).1 rfl, by decide, fun h => ?_, fun h => ?_⟩
  · exact (digitChar_ne _ (Nat.mod_lt _ (by norm_num))).1 h.symm
  · exact (digitChar_ne _ (Nat.mod_lt _ (by norm_num))).1 h.symm

theorem fixed2_first (x : ℝ) : ∃ c z, fixed2 x = c :: z := by
  unfold fixed2
  simp only
  have := Nat.toDigits_ne_nil (n := roundEven (100 * |x|) / 100) (b := 10)
  cases h : Nat.toDigits 10 (roundEven (100 * |x|) / 100) with
  | nil => exact absurd h this
  | cons a l => split <;> exact ⟨_, _, rfl⟩

/-! ## Names -/

theorem split_at {c : Char} {a b x y : List Char} (ha : c ∉ a) (hb : c ∉ b) (h : a ++ c :: x = b ++ c :: y) :
    a = b ∧ x = y := by
  induction a generalizing b with
  | nil =>
    cases b with
    | nil => exact ⟨rfl, (List.cons.inj h).2⟩
    | cons d b => exact absurd ((List.cons.inj h).1 ▸ List.mem_cons_self) hb
  | cons d a ih =>
    cases b with
    | nil => exact absurd ((List.cons.inj h).1 ▸ List.mem_cons_self) ha
    | cons e b =>
      obtain ⟨h1, h2⟩ := List.cons.inj h
      obtain ⟨h3, h4⟩ := ih (fun h => ha (List.mem_cons_of_mem _ h)) (fun h => hb (List.mem_cons_of_mem _ h)) h2
      exact ⟨by rw [h1, h3], h4⟩

/-- The part of the name before the first underscore. -/
noncomputable def key (f32 : ℝ → ℝ) : Picture → List Char
  | .curve c => [c.letter]
  | .curveOfBin c m => c.letter :: 'M' :: fixed2 (Real.logb 10 m)
  | .localT => ['L', 'o', 'c', 'a', 'l', 'T', 'C', 'o', 'u', 'n', 't']
  | .globalT => ['G', 'l', 'o', 'b', 'a', 'l', 'T', 'C', 'o', 'u', 'n', 't']
  | .localEps => ['E', 'p', 's', 'C', 'o', 'u', 'n', 't']
  | .globalEps => ['E', 'p', 's', 'C', 'o', 'u', 'n', 't']
  | .localObj n => ['L', 'o', 'c', 'a', 'l', 'O', 'b', 'j'] ++ Nat.toDigits 10 n
  | .globalObj n => ['G', 'l', 'o', 'b', 'a', 'l', 'O', 'b', 'j'] ++ Nat.toDigits 10 n
  | .dens => ['R', 'h', 'o', 'P', 'r', 'o', 'f']
  | .densOfBin m => ['R', 'h', 'o', 'P', 'r', 'o', 'f', 'M'] ++ fixed2 (f32 (Real.logb 10 m))

/-- Density profiles. -/
def Picture.isDens : Picture → Prop
  | .dens => True
  | .densOfBin _ => True
  | _ => False

open Classical in
theorem fileName_eq (f32 : ℝ → ℝ) (w : Place) (p : Picture) :
    fileName f32 w p = w.dest ++ '/' :: (key f32 p ++ ((if p.isDens then ['_'] else w.suffix) ++ (w.snap ++ pdf))) := by
  cases p <;> simp [fileName, key, Picture.isDens]

theorem key_no_underscore (f32 : ℝ → ℝ) (p : Picture) : '_' ∉ key f32 p := by
  have hd : ∀ n, '_' ∉ Nat.toDigits 10 n := fun n h => (toDigits_ne h).1 rfl
  cases p with
  | curve c => cases c <;> simp [key, Curve.letter]
  | curveOfBin c m => cases c <;> simp [key, Curve.letter, fixed2_no_underscore]
  | densOfBin m => simp [key, fixed2_no_underscore]
  | localObj n => simp [key, hd]
  | globalObj n => simp [key, hd]
  | _ => simp [key]

/-- Pictures which may have the same name: the two histograms of ellipticities, and mass bins with lower edges
closer than 0.01 dex. -/
inductive Alike (f32 : ℝ → ℝ) : Picture → Picture → Prop
  | refl (p) : Alike f32 p p
  | eps : Alike f32 .localEps .globalEps
  | eps' : Alike f32 .globalEps .localEps
  | bins (c) (m m') : |Real.logb 10 m - Real.logb 10 m'| ≤ 1 / 100 → Alike f32 (.curveOfBin c m) (.curveOfBin c m')
  | dens (m m') : |f32 (Real.logb 10 m) - f32 (Real.logb 10 m')| ≤ 1 / 100 → Alike f32 (.densOfBin m) (.densOfBin m')

theorem alike_of_key (f32 : ℝ → ℝ) (p p' : Picture) (h : key f32 p = key f32 p') : Alike f32 p p' := by
  cases p with
  | curve c =>
    cases p' with
    | curve c' => cases c <;> cases c' <;> simp [key, Curve.letter] at h <;> exact .refl _
    | _ => cases c <;> simp [key, Curve.letter] at h
  | curveOfBin c m =>
    cases p' with
    | curveOfBin c' m' =>
      have hf : c.letter = c'.letter ∧ fixed2 (Real.logb 10 m) = fixed2 (Real.logb 10 m') := by
        simpa [key] using h
      have := fixed2_inj _ _ hf.2
      cases c <;> cases c' <;> first | exact .bins _ _ _ this | exact absurd hf.1 (by decide)
    | _ => cases c <;> simp [key, Curve.letter] at h
  | localT => cases p' with
    | localT => exact .refl _
    | curve c' => cases c' <;> simp [key, Curve.letter] at h
    | curveOfBin c' m' => cases c' <;> simp [key, Curve.letter] at h
    | _ => simp [key] at h
  | globalT => cases p' with
    | globalT => exact .refl _
    | curve c' => cases c' <;> simp [key, Curve.letter] at h
    | curveOfBin c' m' => cases c' <;> simp [key, Curve.letter] at h
    | _ => simp [key] at h
  | localEps => cases p' with
    | localEps => exact .refl _
    | globalEps => exact .eps
    | curve c' => cases c' <;> simp [key, Curve.letter] at h
    | curveOfBin c' m' => cases c' <;> simp [key, Curve.letter] at h
    | _ => simp [key] at h
  | globalEps => cases p' with
    | globalEps => exact .refl _
    | localEps => exact .eps'
    | curve c' => cases c' <;> simp [key, Curve.letter] at h
    | curveOfBin c' m' => cases c' <;> simp [key, Curve.letter] at h
    | _ => simp [key] at h
  | localObj n => cases p' with
    | localObj n' =>
      have : n = n' := toDigits_inj _ _ (by simpa [key] using h)
      subst this; exact .refl _
    | curve c' => cases c' <;> simp [key, Curve.letter] at h
    | curveOfBin c' m' => cases c' <;> simp [key, Curve.letter] at h
    | _ => simp [key] at h
  | globalObj n => cases p' with
    | globalObj n' =>
      have : n = n' := toDigits_inj _ _ (by simpa [key] using h)
      subst this; exact .refl _
    | curve c' => cases c' <;> simp [key, Curve.letter] at h
    | curveOfBin c' m' => cases c' <;> simp [key, Curve.letter] at h
    | _ => simp [key] at h
  | dens => cases p' with
    | dens => exact .refl _
    | curve c' => cases c' <;> simp [key, Curve.letter] at h
    | curveOfBin c' m' => cases c' <;> simp [key, Curve.letter] at h
    | _ => simp [key] at h
  | densOfBin m => cases p' with
    | densOfBin m' => exact .dens _ _ (fixed2_inj _ _ (by simpa [key] using h))
    | curve c' => cases c' <;> simp [key, Curve.letter] at h
    | curveOfBin c' m' => cases c' <;> simp [key, Curve.letter] at h
    | _ => simp [key] at h

/-- The suffix belongs to a catalogue: arrays, or Gadget files with objects of some type. -/
def GoodSuffix (s : List Char) : Prop := s = arraySuffix ∨ ∃ t, t ≠ [] ∧ s = gadgetSuffix t

/-- If two pictures of two catalogues (with the same folder and snapshot) have the same name, they are alike and
either the catalogues have the same suffix or both show density profiles. -/
theorem alike_of_fileName (f32 : ℝ → ℝ) (w w' : Place) (hd : w.dest = w'.dest) (hn : w.snap = w'.snap)
    (hs : GoodSuffix w.suffix) (hs' : GoodSuffix w'.suffix) (p p' : Picture)
    (h : fileName f32 w p = fileName f32 w' p') :
    Alike f32 p p' ∧ (w.suffix = w'.suffix ∨ p.isDens ∧ p'.isDens) := by
  classical
  rw [fileName_eq, fileName_eq, hd, hn] at h
  have h1 := (List.cons.inj (List.append_cancel_left h)).2
  have h2 : key f32 p ++ (if p.isDens then ['_'] else w.suffix) = key f32 p' ++ (if p'.isDens then ['_'] else w'.suffix) := by
    refine List.append_cancel_right (bs := w'.snap ++ pdf) ?_
    rw [List.append_assoc, List.append_assoc]
    exact h1
  have head : ∀ s, GoodSuffix s → ∃ z, s = '_' :: z := by
    rintro s (rfl | ⟨t, -, rfl⟩)
    · exact ⟨[], rfl⟩
    · exact ⟨_, rfl⟩
  have hl : ∃ z, (if p.isDens then ['_'] else w.suffix) = '_' :: z := by
    split
    · exact ⟨[], rfl⟩
    · exact head _ hs
  have hr : ∃ z, (if p'.isDens then ['_'] else w'.suffix) = '_' :: z := by
    split
    · exact ⟨[], rfl⟩
    · exact head _ hs'
  obtain ⟨z, hz⟩ := hl
  obtain ⟨z', hz'⟩ := hr
  rw [hz, hz'] at h2
  obtain ⟨hk, hzz⟩ := split_at (key_no_underscore f32 p) (key_no_underscore f32 p') h2
  have ha := alike_of_key f32 p p' hk
  refine ⟨ha, ?_⟩
  have hi : p.isDens ↔ p'.isDens := by cases ha <;> simp [Picture.isDens]
  by_cases hp : p.isDens
  · exact .inr ⟨hp, hi.1 hp⟩
  · left
    rw [if_neg hp] at hz
    rw [if_neg fun h => hp (hi.2 h)] at hz'
    rw [hz, hz', hzz]

/-- C120 (the part which holds). Any pictures of any catalogues of one snapshot are saved in one folder, in any
order, with possible repetitions.  If among them there are no two different ones which are alike (the two histograms
of ellipticities, or mass bins closer than 0.01 dex) and belong to catalogues of the same suffix or are both density
profiles, then in the end each of them is found in the folder under its own name. -/
theorem C120_kept_partial (f32 : ℝ → ℝ) (dest snap : List Char) (folder : Folder) (es : List (Place × Picture))
    (hw : ∀ e ∈ es, e.1.dest = dest ∧ e.1.snap = snap ∧ GoodSuffix e.1.suffix)
    (hap : ∀ e ∈ es, ∀ e' ∈ es, Alike f32 e.2 e'.2 → (e.1.suffix = e'.1.suffix ∨ e.2.isDens ∧ e'.2.isDens) → e = e') :
    ∀ e ∈ es, (es.foldl (fun f e => save f32 e.1 f e.2) folder) (fileName f32 e.1 e.2) = some e := by
  induction es using List.reverseRecOn with
  | nil => intro e he; cases he
  | append_singleton es a ih =>
    intro e he
    rw [List.foldl_append, List.foldl_cons, List.foldl_nil]
    have ha : a ∈ es ++ [a] := by simp
    by_cases hea : fileName f32 e.1 e.2 = fileName f32 a.1 a.2
    · unfold save
      rw [if_pos hea]
      have h1 := hw e he
      have h2 := hw a ha
      obtain ⟨hal, hsf⟩ := alike_of_fileName f32 e.1 a.1 (h1.1.trans h2.1.symm) (h1.2.1.trans h2.2.1.symm) h1.2.2
        h2.2.2 e.2 a.2 hea
      rw [hap e he a ha hal hsf]
    · unfold save
      rw [if_neg hea]
      refine ih (fun x hx => hw x (by simp [hx])) (fun x hx y hy => hap x (by simp [hx]) y (by simp [hy])) e ?_
      rcases List.mem_append.1 he with h | h
      · exact h
      · rw [List.mem_singleton.1 h] at hea
        exact absurd rfl hea

/-- Curves and histograms of dark matter and of stars, a picture of object number 3, and two mass bins at
`10 ^ 11` and `10 ^ 12`, all in the same folder. -/
example (m₁ m₂ : ℝ) (h₁ : Real.logb 10 m₁ = 11) (h₂ : Real.logb 10 m₂ = 12) : ∃ es : List (Place × Picture), es.length = 6 ∧
    (∀ e ∈ es, e.1.dest = "viz".toList ∧ e.1.snap = "024".toList ∧ GoodSuffix e.1.suffix) ∧
    (∀ e ∈ es, ∀ e' ∈ es, Alike id e.2 e'.2 → (e.1.suffix = e'.1.suffix ∨ e.2.isDens ∧ e'.2.isDens) → e = e') := by
  let dm : Place := ⟨"viz".toList, gadgetSuffix "dm".toList, "024".toList⟩
  let st : Place := ⟨"viz".toList, gadgetSuffix "stars".toList, "024".toList⟩
  have hne : dm.suffix ≠ st.suffix := by decide
  refine ⟨[(dm, .curve .q), (st, .curve .q), (dm, .globalEps), (dm, .localObj 3), (dm, .densOfBin m₁),
    (dm, .densOfBin m₂)], rfl, ?_, ?_⟩
  · intro e he
    simp only [List.mem_cons, List.not_mem_nil, or_false] at he
    rcases he with rfl | rfl | rfl | rfl | rfl | rfl <;>
      exact ⟨rfl, rfl, .inr ⟨_, by decide, rfl⟩⟩
  · intro e he e' he' hal hsf
    simp only [List.mem_cons, List.not_mem_nil, or_false] at he he'
    rcases he with rfl | rfl | rfl | rfl | rfl | rfl <;> rcases he' with rfl | rfl | rfl | rfl | rfl | rfl <;>
      first
      | rfl
      | (cases hal; done)
      | (rcases hsf with h | h; · exact absurd h hne
         · exact h.1.elim)
      | (rcases hsf with h | h; · exact absurd h.symm hne
         · exact h.1.elim)
      | (exfalso
         cases hal with
         | refl => rw [h₁] at h₂; norm_num at h₂
         | dens _ _ h => simp only [id, h₁, h₂] at h; norm_num at h)

example : Real.logb 10 ((10 : ℝ) ^ 11) = 11 ∧ Real.logb 10 ((10 : ℝ) ^ 12) = 12 := by
  constructor <;> (rw [Real.logb_pow, Real.logb_self_eq_one (by norm_num)]; norm_num)

/-- C120 is false of the histograms of ellipticities: after `plotLocalEpsHist` and `plotGlobalEpsHist` no file of the
folder shows the former. -/
theorem C120_eps_refuted (f32 : ℝ → ℝ) (w : Place) (folder : Folder) (hf : ∀ name, folder name ≠ some (w, .localEps)) :
    ∀ name, save f32 w (save f32 w folder .localEps) .globalEps name ≠ some (w, .localEps) := by
  intro name
  have he : fileName f32 w .localEps = fileName f32 w .globalEps := rfl
  unfold save
  split
  · simp
  · rename_i h
    rw [he, if_neg h]
    exact hf name

example : ∀ name : List Char, (fun _ => none : Folder) name ≠ some (⟨[], arraySuffix, []⟩, .localEps) := by simp

/-- C120 is false of density profiles of objects of different type: with the same folder and snapshot, the profiles of
the second catalogue replace those of the first. -/
theorem C120_types_refuted (f32 : ℝ → ℝ) (w w' : Place) (hne : w ≠ w') (hd : w.dest = w'.dest) (hn : w.snap = w'.snap)
    (folder : Folder) (hf : ∀ name, folder name ≠ some (w, .dens)) :
    ∀ name, save f32 w' (save f32 w folder .dens) .dens name ≠ some (w, .dens) := by
  intro name
  have he : fileName f32 w .dens = fileName f32 w' .dens := by simp [fileName, hd, hn]
  unfold save
  split
  · simp only [ne_eq, Option.some.injEq, Prod.mk.injEq, and_true]
    exact fun h => hne h.symm
  · rename_i h
    rw [he, if_neg h]
    exact hf name

example : ∃ w w' : Place, w ≠ w' ∧ w.dest = w'.dest ∧ w.snap = w'.snap ∧ w.suffix = gadgetSuffix "dm".toList ∧
    w'.suffix = gadgetSuffix "stars".toList :=
  ⟨⟨"viz".toList, gadgetSuffix "dm".toList, "024".toList⟩, ⟨"viz".toList, gadgetSuffix "stars".toList, "024".toList⟩,
    by intro h; have := congrArg Place.suffix h; revert this; decide, rfl, rfl, rfl, rfl⟩

/-- C120 is false of mass bins: two objects of masses `10 ^ 12` and `10 ^ 12.001` in two bins; the curves of the second
bin are written to the file with those of the first. -/
theorem C120_mass_bins_refuted (f32 : ℝ → ℝ) (w : Place) (c : Curve) :
    ∃ (m₁ m₂ : ℝ) (g : Stats.Split ℝ Nat), m₁ < m₂ ∧ Stats.IsArgsort [0, 1] [m₁, m₂] ∧
      Stats.mSplit [0, 1] [m₁, m₂] [0, 1] 2 = some g ∧ g.edges = [m₁, m₂, m₂] ∧ g.idxGroups = [[0], [1]] ∧
      fileName f32 w (.curveOfBin c m₁) = fileName f32 w (.curveOfBin c m₂) := by
  have h10 : (1 : ℝ) < 10 := by norm_num
  have l1 : Real.logb 10 ((10 : ℝ) ^ (12 : ℝ)) = 12 := Real.logb_rpow (by norm_num) (by norm_num)
  have l2 : Real.logb 10 ((10 : ℝ) ^ (12001 / 1000 : ℝ)) = 12001 / 1000 := Real.logb_rpow (by norm_num) (by norm_num)
  have hlt : (10 : ℝ) ^ (12 : ℝ) < (10 : ℝ) ^ (12001 / 1000 : ℝ) := Real.rpow_lt_rpow_of_exponent_lt h10 (by norm_num)
  have hr1 : roundEven (100 * |(12 : ℝ)|) = 1200 := by
    have hf : ⌊(100 * |(12 : ℝ)|)⌋₊ = 1200 := by rw [Nat.floor_eq_iff (by positivity)]; norm_num
    unfold roundEven
    rw [hf]
    norm_num
  have hr2 : roundEven (100 * |(12001 / 1000 : ℝ)|) = 1200 := by
    have hf : ⌊(100 * |(12001 / 1000 : ℝ)|)⌋₊ = 1200 := by rw [Nat.floor_eq_iff (by positivity)]; norm_num [abs_of_pos]
    unfold roundEven
    rw [hf]
    norm_num [abs_of_pos]
  refine ⟨(10 : ℝ) ^ (12 : ℝ), (10 : ℝ) ^ (12001 / 1000 : ℝ), _, hlt, ?_, rfl, ?_, ?_, ?_⟩
  · refine ⟨by decide, ?_⟩
    show List.Pairwise (· ≤ ·) [_, _]
    rw [List.pairwise_pair]
    exact hlt.le
  · rfl
  · rfl
  · simp only [fileName, l1, l2, fixed2, hr1, hr2]
    norm_num

end Verif.Plots
