import Verif.Mock.HaloLemmas
import Mathlib.Tactic.NormNum
import Mathlib.Analysis.SpecialFunctions.Integrals.Basic

/-!
# Properties of mock halos (C63, C65, C92)
-/

namespace Verif.Mock

/-! ## The loop -/

/-- The shells returned by the loop: some number of coarsenings, and the number of particles which stopped it. -/
theorem loop_ok (mass : ℝ → ℝ → ℝ) (res tot : ℝ) : ∀ (fuel : Nat) (s : Axes) (N1 : ℤ) (count : Nat), 1001 - count ≤ fuel →
    ∀ s' N1', coarsenLoop mass res tot s N1 count = .ok (s', N1') →
      ∃ k, count + k ≤ max 1001 count ∧ s' = Axes.coarsen^[k] s ∧ N1' ≠ 0 ∧
        (firstCount mass res tot s.a = .ok N1 → firstCount mass res tot s'.a = .ok N1') := by
  intro fuel
  induction fuel with
  | zero =>
    intro s N1 count hf s' N1' h
    rw [coarsenLoop] at h
    split at h
    · split at h
      · cases h
      · rw [dif_pos (by omega)] at h
        cases h
    · rename_i h0
      injection h with h
      injection h with h1 h2
      subst h1 h2
      exact ⟨0, by omega, rfl, h0, id⟩
  | succ fuel ih =>
    intro s N1 count hf s' N1' h
    rw [coarsenLoop] at h
    split at h
    · split at h
      · cases h
      · rename_i N2 hN2
        split at h
        · cases h
        · rename_i hc
          obtain ⟨k, h1, h2, h3, h4⟩ := ih s.coarsen N2 (count + 1) (by omega) s' N1' h
          refine ⟨k + 1, by omega, ?_, h3, fun _ => h4 hN2⟩
          rw [h2, Function.iterate_succ_apply]
    · rename_i h0
      injection h with h
      injection h with h1 h2
      subst h1 h2
      exact ⟨0, by omega, rfl, h0, id⟩

theorem iterate_coarsen_a (s : Axes) (k : Nat) : (Axes.coarsen^[k] s).a = coarsen^[k] s.a := by
  induction k generalizing s with
  | zero => rfl
  | succ k ih => rw [Function.iterate_succ_apply, ih, Function.iterate_succ_apply]; rfl

theorem iterate_coarsen_b (s : Axes) (k : Nat) : (Axes.coarsen^[k] s).b = coarsen^[k] s.b := by
  induction k generalizing s with
  | zero => rfl
  | succ k ih => rw [Function.iterate_succ_apply, ih, Function.iterate_succ_apply]; rfl

theorem iterate_coarsen_c (s : Axes) (k : Nat) : (Axes.coarsen^[k] s).c = coarsen^[k] s.c := by
  induction k generalizing s with
  | zero => rfl
  | succ k ih => rw [Function.iterate_succ_apply, ih, Function.iterate_succ_apply]; rfl

theorem iterate_last {α : Type} (l : List α) (k : Nat) : (coarsen^[k] l).getLast? = l.getLast? := by
  induction k generalizing l with
  | zero => rfl
  | succ k ih => rw [Function.iterate_succ_apply, ih, coarsen_last]

theorem iterate_head {α : Type} (l : List α) (k : Nat) : (coarsen^[k] l).head? = l.head? := by
  induction k generalizing l with
  | zero => rfl
  | succ k ih => rw [Function.iterate_succ_apply, ih, coarsen_head]

theorem iterate_sublist {α : Type} (l : List α) (k : Nat) : (coarsen^[k] l).Sublist l := by
  induction k generalizing l with
  | zero => exact .refl _
  | succ k ih => rw [Function.iterate_succ_apply]; exact (ih _).trans (coarsen_sublist l)

theorem iterate_map {α β : Type} (f : α → β) (l : List α) (k : Nat) : coarsen^[k] (l.map f) = (coarsen^[k] l).map f := by
  induction k generalizing l with
  | zero => rfl
  | succ k ih => rw [Function.iterate_succ_apply, coarsen_map, ih, Function.iterate_succ_apply]

/-- What is known of a halo which was generated. -/
theorem genHalo_ok {tot res : ℝ} {p : Prof} {s : Axes} {h : Halo} (hg : genHalo tot res p s = .ok h) :
    ∃ aLast k a0 a1 l N1, s.a.getLast? = some aLast ∧ h.rho = tot / quad (integrand0 p) start aLast ∧ k ≤ 1001 ∧
      h.axes = Axes.coarsen^[k] s ∧ h.axes.a = a0 :: a1 :: l ∧ N1 ≠ 0 ∧
      N1 = pyRound (res * quad (integrand h.rho p) a0 a1 / tot) ∧
      h.counts = counts (quad (integrand h.rho p)) h.axes.a N1 (quad (integrand h.rho p) a0 a1) ∧
      (∀ n ∈ h.counts, 0 ≤ n) ∧
      h.massPtc = quad (integrand h.rho p) start aLast / (h.counts.sum : ℤ) := by
  unfold genHalo at hg
  split at hg
  · cases hg
  · rename_i aLast hlast
    dsimp only at hg
    set rho := tot / quad (integrand0 p) start aLast with hrho
    split at hg
    · cases hg
    · rename_i N0 hN0
      split at hg
      · cases hg
      · rename_i s' N1 hloop
        obtain ⟨k, hk, hs', hne, hfc⟩ := loop_ok _ res tot 1001 s N0 0 (by omega) s' N1 hloop
        have hfc := hfc hN0
        split at hg
        · rename_i a0 a1 l hs'a
          split at hg
          · cases hg
          · rename_i hany
            injection hg with hg
            subst hg
            rw [hs'a] at hfc
            simp only [firstCount, Except.ok.injEq] at hfc
            refine ⟨aLast, k, a0, a1, l, N1, hlast, rfl, by omega, hs', hs'a, hne, hfc.symm, by rw [hs'a], ?_, ?_⟩
            · intro n hn
              by_contra hneg
              exact hany (List.any_eq_true.mpr ⟨n, hn, by simpa using hneg⟩)
            · have h1 : s'.a.getLast? = some aLast := by rw [hs', iterate_coarsen_a, iterate_last, hlast]
              rw [hs'a, List.getLast?_eq_some_getLast (by simp)] at h1
              injection h1 with h1
              rw [h1]
        · cases hg

/-- The first proper shell has `N1` particles. -/
theorem counts_second {mass : ℝ → ℝ → ℝ} {a0 a1 : ℝ} {l : List ℝ} {N1 : ℤ} (hm : mass a0 a1 ≠ 0) :
    ∃ n0 rest, counts mass (a0 :: a1 :: l) N1 (mass a0 a1) = n0 :: N1 :: rest := by
  refine ⟨pyRound (N1 * mass start a0 / mass a0 a1),
    List.zipWith (fun lo hi => pyRound (N1 * mass lo hi / mass a0 a1)) (a1 :: l) l, ?_⟩
  simp only [counts, List.zipWith_cons_cons, List.cons.injEq, true_and, and_true]
  rw [mul_div_assoc, div_self hm, mul_one, pyRound_int]

theorem mass_ne_zero {res tot m : ℝ} (h : pyRound (res * m / tot) ≠ 0) : m ≠ 0 := by
  rintro rfl
  apply h
  have := pyRound_int 0
  simpa using this

theorem counts_sum_pos {tot res : ℝ} {p : Prof} {s : Axes} {h : Halo} (hg : genHalo tot res p s = .ok h) :
    0 < h.counts.sum ∧ ∃ n0 n1 rest, h.counts = n0 :: n1 :: rest ∧ 1 ≤ n1 := by
  obtain ⟨aLast, k, a0, a1, l, N1, -, -, -, -, hax, hne, hN1, hc, hnn, -⟩ := genHalo_ok hg
  have hm := mass_ne_zero (by rw [← hN1]; exact hne)
  obtain ⟨n0, rest, hcc⟩ := counts_second (N1 := N1) (l := l) hm
  rw [hax, hcc] at hc
  have h1 : 0 ≤ N1 := hnn N1 (by rw [hc]; simp)
  have h2 : 0 ≤ n0 := hnn n0 (by rw [hc]; simp)
  have h3 : 0 ≤ rest.sum := List.sum_nonneg fun x hx => hnn x (by rw [hc]; simp [hx])
  refine ⟨?_, n0, N1, rest, hc, by omega⟩
  rw [hc, List.sum_cons, List.sum_cons]
  omega

/-! ## C63 -/

/-- C63. Particle number times particle mass is the requested mass, and so is the mass of the density model up
to the outermost semi-major axis. -/
theorem C63_total_mass (tot res : ℝ) (p : Prof) (hp : p.Pos) (s : Axes) (aLast : ℝ) (hl : s.a.getLast? = some aLast)
    (ha : start < aLast) (h : Halo) (hg : genHalo tot res p s = .ok h) :
    (h.counts.sum : ℝ) * h.massPtc = tot ∧ quad (integrand h.rho p) start aLast = tot := by
  obtain ⟨aLast', k, a0, a1, l, N1, hl', hrho, -, -, -, -, -, -, -, hm⟩ := genHalo_ok hg
  rw [hl] at hl'
  injection hl' with hl'
  subst hl'
  have hpos := quad0_pos hp start_pos ha
  have h1 : quad (integrand h.rho p) start aLast = tot := by
    rw [quad_integrand, hrho, div_mul_cancel₀ _ hpos.ne']
  refine ⟨?_, h1⟩
  have hs : ((h.counts.sum : ℤ) : ℝ) ≠ 0 := by
    have := (counts_sum_pos hg).1
    exact_mod_cast this.ne'
  rw [hm, h1, mul_div_cancel₀ _ hs]

/-- C63. The masses of all shells used add up to the requested mass. -/
theorem C63_shells (tot res : ℝ) (p : Prof) (hp : p.Pos) (s : Axes) (hs : ∀ x ∈ s.a, start < x) (h : Halo)
    (hg : genHalo tot res p s = .ok h) :
    (List.zipWith (quad (integrand h.rho p)) (start :: h.axes.a) h.axes.a).sum = tot := by
  obtain ⟨aLast, k, a0, a1, l, N1, hl, hrho, -, hax, -, -, -, -, -, -⟩ := genHalo_ok hg
  have hmem : aLast ∈ s.a := List.mem_of_getLast? hl
  have hall : ∀ y ∈ h.axes.a, 0 < y := by
    intro y hy
    rw [hax, iterate_coarsen_a] at hy
    exact start_pos.trans (hs y ((iterate_sublist s.a k).subset hy))
  rw [shells_sum hp h.rho start start_pos h.axes.a hall]
  have hlast : h.axes.a.getLast? = some aLast := by rw [hax, iterate_coarsen_a, iterate_last, hl]
  rw [List.getLastD_eq_getLast?, hlast]
  exact (C63_total_mass tot res p hp s aLast hl (hs aLast hmem) h hg).2

/-! ## C92 -/

theorem counts_close (mass : ℝ → ℝ → ℝ) (N1 : ℤ) (m1 : ℝ) (a : List ℝ) (x : ℝ) :
    |(((List.zipWith (fun lo hi => pyRound (N1 * mass lo hi / m1)) (x :: a) a).sum : ℤ) : ℝ) -
      N1 * (List.zipWith mass (x :: a) a).sum / m1| ≤ a.length / 2 := by
  induction a generalizing x with
  | nil => simp
  | cons y a ih =>
    have h1 := ih y
    have h2 := pyRound_close (N1 * mass x y / m1)
    simp only [List.zipWith_cons_cons, List.sum_cons, List.length_cons]
    rw [Int.cast_add, Nat.cast_add, Nat.cast_one]
    rw [abs_le] at *
    have e : N1 * (mass x y + (List.zipWith mass (y :: a) a).sum) / m1 =
        N1 * mass x y / m1 + N1 * (List.zipWith mass (y :: a) a).sum / m1 := by ring
    constructor <;> rw [e] <;> linarith [h1.1, h1.2, h2.1, h2.2]

/-- C92. The number of particles is the target resolution up to a factor between 2/3 and 2, and half a
particle for each shell. -/
theorem C92_resolution (tot res : ℝ) (htot : 0 < tot) (hres : 0 < res) (p : Prof) (hp : p.Pos) (s : Axes)
    (hs : ∀ x ∈ s.a, start < x) (h : Halo) (hg : genHalo tot res p s = .ok h) :
    2 / 3 * res - s.a.length / 2 ≤ h.counts.sum ∧ (h.counts.sum : ℝ) ≤ 2 * res + s.a.length / 2 := by
  obtain ⟨aLast, k, a0, a1, l, N1, hl, hrho, -, hax, hcons, hne, hN1, hc, hnn, -⟩ := genHalo_ok hg
  have hsum := C63_shells tot res p hp s hs h hg
  set mass := quad (integrand h.rho p) with hmass
  set m1 := mass a0 a1 with hm1
  have hm := mass_ne_zero (m := m1) (by rw [← hN1]; exact hne)
  have hN1pos : 1 ≤ N1 := by
    obtain ⟨n0, rest, hcc⟩ := counts_second (mass := mass) (a0 := a0) (a1 := a1) (N1 := N1) (l := l) hm
    rw [hcons, hcc] at hc
    have := hnn N1 (by rw [hc]; simp)
    omega
  have hN1r : (1 : ℝ) ≤ N1 := by exact_mod_cast hN1pos
  have hx := pyRound_close (res * m1 / tot)
  rw [← hN1, abs_le] at hx
  have hclose := counts_close mass N1 m1 h.axes.a start
  rw [hsum] at hclose
  rw [hc]
  unfold counts
  have hlen : (h.axes.a.length : ℝ) ≤ s.a.length := by
    rw [hax, iterate_coarsen_a]
    exact_mod_cast (iterate_sublist s.a k).length_le
  rw [abs_le] at hclose
  set x := res * m1 / tot with hxdef
  have hxpos : 0 < x := by linarith
  have hratio : (N1 : ℝ) * tot / m1 = res * (N1 / x) := by
    rw [hxdef]
    field_simp
  rw [hratio] at hclose
  have hlow : 2 / 3 ≤ (N1 : ℝ) / x := by
    rw [le_div_iff₀ hxpos]; linarith
  have hhigh : (N1 : ℝ) / x ≤ 2 := by
    rw [div_le_iff₀ hxpos]; linarith
  have h1 : 2 / 3 * res ≤ res * (N1 / x) := by
    rw [mul_comm]; exact mul_le_mul_of_nonneg_left hlow hres.le
  have h2 : res * (N1 / x) ≤ 2 * res := by
    rw [mul_comm 2]; exact mul_le_mul_of_nonneg_left hhigh hres.le
  constructor <;> linarith [hclose.1, hclose.2]

/-! ## C65 -/

/-- C65. The shells of the halo are the requested ones, coarsened at most 1001 times; the innermost and the
outermost semi-axes are kept, and every shell used is one of the requested shells, in the same order. -/
theorem C65_extent (tot res : ℝ) (p : Prof) (shells : List (ℝ × ℝ × ℝ)) (h : Halo)
    (hg : genHalo tot res p ⟨shells.map fun t => t.1, shells.map fun t => t.2.1, shells.map fun t => t.2.2⟩ = .ok h) :
    ∃ used : List (ℝ × ℝ × ℝ), used.Sublist shells ∧ used.getLast? = shells.getLast? ∧ used.head? = shells.head? ∧
      2 ≤ used.length ∧ h.axes.a = (used.map fun t => t.1) ∧ h.axes.b = (used.map fun t => t.2.1) ∧
      h.axes.c = (used.map fun t => t.2.2) ∧ (∃ k ≤ 1001, used = coarsen^[k] shells) := by
  obtain ⟨aLast, k, a0, a1, l, N1, -, -, hk, hax, hcons, -⟩ := genHalo_ok hg
  have ha : h.axes.a = ((coarsen^[k] shells).map fun t => t.1) := by
    rw [hax, iterate_coarsen_a]; exact iterate_map _ _ _
  refine ⟨coarsen^[k] shells, iterate_sublist _ _, iterate_last _ _, iterate_head _ _, ?_, ha, ?_, ?_, k, hk, rfl⟩
  · have := congrArg List.length ha
    rw [hcons, List.length_map] at this
    simp only [List.length_cons] at this
    omega
  · rw [hax, iterate_coarsen_b]; exact iterate_map _ _ _
  · rw [hax, iterate_coarsen_c]; exact iterate_map _ _ _

/-- C65. The first proper shell has particles.  Missing: the other shells, see `C65_empty_shell_refuted`. -/
theorem C65_first_shell_partial (tot res : ℝ) (p : Prof) (s : Axes) (h : Halo) (hg : genHalo tot res p s = .ok h) :
    ∃ n0 n1 rest, h.counts = n0 :: n1 :: rest ∧ 1 ≤ n1 := (counts_sum_pos hg).2

theorem iterate_two {α : Type} : ∀ (k : Nat) (l : List α), 2 ≤ l.length → l.length ≤ 2 ^ k + 1 →
    (coarsen^[k] l).length = 2 := by
  intro k
  induction k with
  | zero => intro l h1 h2; simp at h2 ⊢; omega
  | succ k ih =>
    intro l h1 h2
    rw [Function.iterate_succ_apply]
    have hne : l ≠ [] := by rintro rfl; simp at h1
    have := coarsen_length l hne
    apply ih
    · omega
    · rw [this]; rw [pow_succ] at h2; omega

/-- The loop does not fail if the coarsest grid, the innermost and outermost shell, has particles. -/
theorem loop_succeeds (mass : ℝ → ℝ → ℝ) (res tot : ℝ) (a0 aLast : ℝ) (N : ℤ)
    (hN : firstCount mass res tot [a0, aLast] = .ok N) (hN0 : N ≠ 0) : ∀ (k : Nat) (s : Axes) (N1 : ℤ) (count : Nat),
    count + k ≤ 1001 → 2 ≤ s.a.length → s.a.length ≤ 2 ^ k + 1 → s.a.head? = some a0 → s.a.getLast? = some aLast →
    firstCount mass res tot s.a = .ok N1 → ∃ r, coarsenLoop mass res tot s N1 count = .ok r := by
  intro k
  induction k with
  | zero =>
    intro s N1 count hc h1 h2 h3 h4 h5
    have : s.a = [a0, aLast] := by
      match hs : s.a, h1, h2, h3, h4 with
      | [x, y], _, _, h3, h4 => simp at h3 h4; rw [h3, h4]
      | x :: y :: z :: l, _, h2, _, _ => simp at h2
    rw [this, hN] at h5
    injection h5 with h5
    subst h5
    rw [coarsenLoop, if_neg hN0]
    exact ⟨_, rfl⟩
  | succ k ih =>
    intro s N1 count hc h1 h2 h3 h4 h5
    rw [coarsenLoop]
    split
    · have hne : s.a ≠ [] := by intro h; rw [h] at h1; simp at h1
      have hlen : s.coarsen.a.length = s.a.length / 2 + 1 := coarsen_length s.a hne
      have h1' : 2 ≤ s.coarsen.a.length := by omega
      obtain ⟨N2, hN2⟩ : ∃ N2, firstCount mass res tot s.coarsen.a = .ok N2 := by
        match hs : s.coarsen.a, h1' with
        | x :: y :: l, _ => exact ⟨_, rfl⟩
      rw [hN2]
      dsimp only
      rw [dif_neg (by omega)]
      apply ih
      · omega
      · exact h1'
      · rw [hlen]; rw [pow_succ] at h2; omega
      · exact (coarsen_head s.a).trans h3
      · exact (coarsen_last s.a).trans h4
      · exact hN2
    · exact ⟨_, rfl⟩

/-- C65. For increasing shells, up to `2^1000 + 1` of them, a halo is generated whenever the shell between the
innermost and the outermost ellipsoid deserves a particle. -/
theorem C65_no_failure (tot res : ℝ) (htot : 0 < tot) (hres : 0 < res) (p : Prof) (hp : p.Pos) (s : Axes)
    (hs : ∀ x ∈ s.a, start < x) (hsort : s.a.Pairwise (· < ·)) (hlen : 2 ≤ s.a.length) (hlen' : s.a.length ≤ 2 ^ 1000 + 1)
    (a0 aLast : ℝ) (h0 : s.a.head? = some a0) (hl : s.a.getLast? = some aLast)
    (henough : 1 / 2 < res * (quad (integrand0 p) a0 aLast / quad (integrand0 p) start aLast)) :
    ∃ h, genHalo tot res p s = .ok h := by
  have hpos : 0 < quad (integrand0 p) start aLast := quad0_pos hp start_pos (hs aLast (List.mem_of_getLast? hl))
  unfold genHalo
  rw [hl]
  dsimp only
  set rho := tot / quad (integrand0 p) start aLast with hrho
  have hrhopos : 0 < rho := div_pos htot hpos
  have hmasspos : ∀ x y : ℝ, 0 < x → x < y → 0 < quad (integrand rho p) x y := by
    intro x y hx hxy
    rw [quad_integrand]
    exact mul_pos hrhopos (quad0_pos hp hx hxy)
  have hN : firstCount (quad (integrand rho p)) res tot [a0, aLast] =
      .ok (pyRound (res * quad (integrand rho p) a0 aLast / tot)) := rfl
  have hN0 : pyRound (res * quad (integrand rho p) a0 aLast / tot) ≠ 0 := by
    intro hz
    have := pyRound_close (res * quad (integrand rho p) a0 aLast / tot)
    rw [hz, quad_integrand] at this
    have e : res * (rho * quad (integrand0 p) a0 aLast) / tot =
        res * (quad (integrand0 p) a0 aLast / quad (integrand0 p) start aLast) := by
      rw [hrho]; field_simp
    rw [e, abs_le] at this
    have := this.1
    push_cast at this
    linarith
  obtain ⟨N1, hN1⟩ : ∃ N1, firstCount (quad (integrand rho p)) res tot s.a = .ok N1 := by
    match hs : s.a, hlen with
    | x :: y :: l, _ => exact ⟨_, rfl⟩
  rw [hN1]
  dsimp only
  obtain ⟨⟨s', N1'⟩, hloop⟩ := loop_succeeds _ res tot a0 aLast _ hN hN0 1000 s N1 0 (by omega) hlen hlen' h0 hl hN1
  rw [hloop]
  dsimp only
  obtain ⟨k, -, hs', hne', hfc⟩ := loop_ok _ res tot 1001 s N1 0 (by omega) s' N1' hloop
  have hfc := hfc hN1
  have hsub : s'.a.Sublist s.a := by rw [hs', iterate_coarsen_a]; exact iterate_sublist _ _
  have hsort' : s'.a.Pairwise (· < ·) := hsort.sublist hsub
  match hs'a : s'.a with
  | [] => rw [hs'a] at hfc; cases hfc
  | [x] => rw [hs'a] at hfc; cases hfc
  | x :: y :: l =>
    dsimp only
    rw [hs'a] at hfc hsort' hsub
    have hall : ∀ z ∈ x :: y :: l, start < z := fun z hz => hs z (hsub.subset hz)
    have hxy : x < y := by rw [List.pairwise_cons] at hsort'; exact hsort'.1 y List.mem_cons_self
    have hm1 : 0 < quad (integrand rho p) x y := hmasspos x y (start_pos.trans (hall x List.mem_cons_self)) hxy
    have hN1'nn : 0 ≤ N1' := by
      simp only [firstCount, Except.ok.injEq] at hfc
      rw [← hfc]
      apply pyRound_nonneg
      positivity
    have hcount : ∀ (a : List ℝ) (lo : ℝ), 0 < lo → (lo :: a).Pairwise (· < ·) →
        ∀ n ∈ List.zipWith (fun lo hi => pyRound (N1' * quad (integrand rho p) lo hi / quad (integrand rho p) x y)) (lo :: a) a,
          0 ≤ n := by
      intro a
      induction a with
      | nil => intro lo _ _ n hn; simp at hn
      | cons z a ih =>
        intro lo hlo hp' n hn
        rw [List.zipWith_cons_cons, List.mem_cons] at hn
        rw [List.pairwise_cons] at hp'
        have hz := hp'.1 z List.mem_cons_self
        rcases hn with rfl | hn
        · apply pyRound_nonneg
          have h1 := hmasspos lo z hlo hz
          have h2 : (0 : ℝ) ≤ N1' := by exact_mod_cast hN1'nn
          positivity
        · exact ih z (hlo.trans hz) hp'.2 n hn
    have hany : (counts (quad (integrand rho p)) (x :: y :: l) N1' (quad (integrand rho p) x y)).any (· < 0) = false := by
      rw [List.any_eq_false]
      intro n hn
      have := hcount (x :: y :: l) start start_pos (List.pairwise_cons.mpr ⟨hall, hsort'⟩) n hn
      simpa using this
    rw [hany]
    exact ⟨_, rfl⟩

/-! ### An empty shell -/

/-- For inner and outer slope 2 the mass of a shell is proportional to its thickness. -/
theorem quad_flat (rho lo hi : ℝ) (h1 : 0 < lo) (h2 : lo ≤ hi) :
    quad (integrand rho (.abg 1 2 2 1)) lo hi = rho * (4 * Real.pi * (hi - lo)) := by
  rw [quad_integrand]
  congr 1
  unfold quad
  have : ∫ x in lo..hi, integrand0 (.abg 1 2 2 1) x = ∫ _ in lo..hi, 4 * Real.pi := by
    apply intervalIntegral.integral_congr
    intro x hx
    rw [Set.uIcc_of_le h2] at hx
    have hx0 : 0 < x := lt_of_lt_of_le h1 hx.1
    simp only [integrand0, div_one, sub_self, Real.rpow_zero, mul_one]
    have : x ^ (2 : ℝ) = x ^ 2 := by exact_mod_cast Real.rpow_natCast x 2
    rw [this]
    field_simp
  rw [this, intervalIntegral.integral_const]
  simp only [smul_eq_mul]
  ring

/-- C65 is false: with three shells and a target of ten particles, the outermost shell is empty and nothing
is merged. -/
theorem C65_empty_shell_refuted : ¬ ∀ (tot res : ℝ) (p : Prof) (s : Axes) (h : Halo), 0 < tot → 0 < res → p.Pos →
    (∀ x ∈ s.a, start < x) → s.a.Pairwise (· < ·) → genHalo tot res p s = .ok h → ∀ n ∈ h.counts, 1 ≤ n := by
  intro hall
  have hst : start ≤ 1 := by unfold start; norm_num
  have hst' : start < 1 := by unfold start; norm_num
  set s : Axes := ⟨[1, 10, 10 + start], [1, 10, 10 + start], [1, 10, 10 + start]⟩ with hs
  have hp : (Prof.abg 1 2 2 1).Pos := by constructor <;> norm_num
  have hst0 := start_pos
  have hmem : ∀ x ∈ s.a, start < x := by
    intro x hx
    simp only [hs, List.mem_cons, List.not_mem_nil, or_false] at hx
    rcases hx with rfl | rfl | rfl <;> linarith
  have hsort : s.a.Pairwise (· < ·) := by
    simp only [hs, List.pairwise_cons, List.mem_cons, List.not_mem_nil, or_false, forall_eq_or_imp, forall_eq]
    refine ⟨⟨by norm_num, by linarith⟩, by linarith, ?_, List.Pairwise.nil⟩
    simp
  have hq : ∀ lo hi : ℝ, 0 < lo → lo ≤ hi → quad (integrand0 (.abg 1 2 2 1)) lo hi = 4 * Real.pi * (hi - lo) := by
    intro lo hi h1 h2
    have := quad_flat 1 lo hi h1 h2
    rw [quad_integrand, one_mul, one_mul] at this
    exact this
  have hpi := Real.pi_pos
  -- the total mass `40π` makes `rho = 1`
  have hrho : 40 * Real.pi / quad (integrand0 (.abg 1 2 2 1)) start (10 + start) = 1 := by
    rw [hq start (10 + start) hst0 (by linarith)]
    field_simp
    ring
  have hc1 : pyRound (10 * quad (integrand 1 (.abg 1 2 2 1)) 1 10 / (40 * Real.pi)) = 9 := by
    rw [quad_flat 1 1 10 (by norm_num) (by norm_num)]
    have : 10 * (1 * (4 * Real.pi * (10 - 1))) / (40 * Real.pi) = ((9 : ℤ) : ℝ) := by
      push_cast; field_simp; norm_num
    rw [this, pyRound_int]
  have h2 : pyRound (((9 : ℤ) : ℝ) * quad (integrand 1 (.abg 1 2 2 1)) 10 (10 + start) /
      quad (integrand 1 (.abg 1 2 2 1)) 1 10) = 0 := by
    rw [quad_flat 1 10 (10 + start) (by norm_num) (by linarith), quad_flat 1 1 10 (by norm_num) (by norm_num)]
    have : ((9 : ℤ) : ℝ) * (1 * (4 * Real.pi * (10 + start - 10))) / (1 * (4 * Real.pi * (10 - 1))) = start := by
      push_cast; field_simp; ring
    rw [this]
    unfold start pyRound
    have hf : ⌊(1 : ℝ) / 10 ^ 8⌋ = 0 := by rw [Int.floor_eq_iff]; norm_num
    rw [hf]
    norm_num
  have h0 : 0 ≤ pyRound (((9 : ℤ) : ℝ) * quad (integrand 1 (.abg 1 2 2 1)) start 1 / quad (integrand 1 (.abg 1 2 2 1)) 1 10) := by
    apply pyRound_nonneg
    rw [quad_flat 1 start 1 hst0 hst, quad_flat 1 1 10 (by norm_num) (by norm_num)]
    have : 0 ≤ 1 - start := by linarith
    push_cast
    positivity
  have h1 : pyRound (((9 : ℤ) : ℝ) * quad (integrand 1 (.abg 1 2 2 1)) 1 10 / quad (integrand 1 (.abg 1 2 2 1)) 1 10) = 9 := by
    have : quad (integrand 1 (.abg 1 2 2 1)) 1 10 ≠ 0 := by
      rw [quad_flat 1 1 10 (by norm_num) (by norm_num)]
      positivity
    rw [mul_div_assoc, div_self this, mul_one, pyRound_int]
  have hrun : ∃ h, genHalo (40 * Real.pi) 10 (.abg 1 2 2 1) s = .ok h ∧ (0 : ℤ) ∈ h.counts := by
    unfold genHalo
    simp only [hs, List.getLast?_cons_cons, List.getLast?_singleton, hrho, firstCount, hc1]
    rw [coarsenLoop, if_neg (by norm_num)]
    simp only [counts, List.zipWith_cons_cons, List.zipWith_nil_right, h1, h2]
    rw [if_neg]
    · exact ⟨_, rfl, by simp⟩
    · simp only [List.any_cons, List.any_nil, Bool.or_eq_true, decide_eq_true_eq, not_or]
      refine ⟨by omega, by omega, by omega, by simp⟩
  obtain ⟨h, hg, hz⟩ := hrun
  have := hall (40 * Real.pi) 10 (.abg 1 2 2 1) s h (by positivity) (by norm_num) hp hmem hsort hg 0 hz
  omega

theorem two_le_pow (k : Nat) : 2 ≤ 2 ^ k + 1 := Nat.succ_le_succ Nat.one_le_two_pow

/-- The hypotheses of `C65_no_failure` hold for two shells and an isothermal profile. -/
example : ∃ h, genHalo 1 10 (.abg 1 2 2 1) ⟨[1, 3], [1, 2], [1, 1]⟩ = .ok h := by
  have hst : start < 1 := by unfold start; norm_num
  have hst0 := start_pos
  have hpi := Real.pi_pos
  apply C65_no_failure 1 10 one_pos (by norm_num) (.abg 1 2 2 1) (by constructor <;> norm_num) _ (aLast := 3) (a0 := 1)
  · intro x hx
    simp only [List.mem_cons, List.not_mem_nil, or_false] at hx
    rcases hx with rfl | rfl <;> linarith
  · simp
  · simp
  · exact two_le_pow 1000
  · rfl
  · rfl
  · have hq : ∀ lo hi : ℝ, 0 < lo → lo ≤ hi → quad (integrand0 (.abg 1 2 2 1)) lo hi = 4 * Real.pi * (hi - lo) := by
      intro lo hi h1 h2
      have := quad_flat 1 lo hi h1 h2
      rw [quad_integrand, one_mul, one_mul] at this
      exact this
    rw [hq 1 3 one_pos (by norm_num), hq start 3 hst0 (by linarith)]
    have h3 : 0 < 3 - start := by linarith
    rw [mul_div_mul_left _ _ (by positivity), ← mul_div_assoc, lt_div_iff₀ h3]
    linarith

end Verif.Mock
