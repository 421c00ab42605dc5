import Verif.Mock.HaloProps

/-!
# Mass of the shells of a mock halo (C63)
-/

namespace Verif.Mock

/-- C63. The particles follow the density model: shell by shell, the mass of the particles differs from the mass of the model in the shell by not more than half a particle mass,
plus the fraction of the mass in the shell times half a particle mass for every shell. -/
theorem C63_follows_model (tot res : ℝ) (htot : 0 < tot) (p : Prof) (hp : p.Pos) (s : Axes)
    (hs : ∀ x ∈ s.a, start < x) (hsort : s.a.Pairwise (· < ·)) (h : Halo) (hg : genHalo tot res p s = .ok h) :
    h.counts.length = h.axes.a.length ∧
    ∀ (k : Nat) (n : ℤ) (inner outer : ℝ), h.counts[k]? = some n → (start :: h.axes.a)[k]? = some inner → h.axes.a[k]? = some outer →
      |(n : ℝ) * h.massPtc - quad (integrand h.rho p) inner outer| ≤
        h.massPtc * (1 + h.axes.a.length * (quad (integrand h.rho p) inner outer / tot)) / 2 := by
  obtain ⟨aLast, k0, a0, a1, l, N1, hl, hrho, -, hax, hcons, hne, hN1, hc, hnn, -⟩ := genHalo_ok hg
  have hsum := C63_shells tot res p hp s hs h hg
  have htm := (C63_total_mass tot res p hp s aLast hl (hs aLast (List.mem_of_getLast? hl)) h hg).1
  have hNpos : (0 : ℝ) < h.counts.sum := by exact_mod_cast (counts_sum_pos hg).1
  have hmp : 0 < h.massPtc := by
    by_contra hneg
    rw [not_lt] at hneg
    nlinarith
  have hrpos : 0 < h.rho := by rw [hrho]; exact div_pos htot (quad0_pos hp start_pos (hs aLast (List.mem_of_getLast? hl)))
  have hclose := counts_close (quad (integrand h.rho p)) N1 (quad (integrand h.rho p) a0 a1) h.axes.a start
  rw [hsum] at hclose
  have hc' : h.counts.sum = (List.zipWith (fun lo hi => pyRound (N1 * quad (integrand h.rho p) lo hi / quad (integrand h.rho p) a0 a1))
      (start :: h.axes.a) h.axes.a).sum := by rw [hc]; rfl
  rw [← hc'] at hclose
  refine ⟨by rw [hc]; simp [counts], ?_⟩
  intro k n inner outer hn hi ho
  have hn' : n = pyRound (N1 * quad (integrand h.rho p) inner outer / quad (integrand h.rho p) a0 a1) := by
    rw [hc] at hn
    unfold counts at hn
    rw [List.getElem?_zipWith, hi, ho] at hn
    exact (Option.some.inj hn).symm
  have hsorted : (start :: h.axes.a).Pairwise (· < ·) := by
    rw [List.pairwise_cons]
    rw [hax, iterate_coarsen_a]
    exact ⟨fun x hx => hs x ((iterate_sublist s.a k0).subset hx), hsort.sublist (iterate_sublist s.a k0)⟩
  have hlt : inner < outer := by
    have ho' : (start :: h.axes.a)[k + 1]? = some outer := by simpa using ho
    obtain ⟨i1, rfl⟩ := List.getElem?_eq_some_iff.1 hi
    obtain ⟨i2, rfl⟩ := List.getElem?_eq_some_iff.1 ho'
    exact List.pairwise_iff_getElem.1 hsorted k (k + 1) i1 i2 (Nat.lt_succ_self k)
  have hinner : 0 < inner := by
    rcases List.mem_cons.1 (List.mem_of_getElem? hi) with rfl | hmem
    · exact start_pos
    · rw [hax, iterate_coarsen_a] at hmem
      exact start_pos.trans (hs _ ((iterate_sublist s.a k0).subset hmem))
  have hM : 0 < quad (integrand h.rho p) inner outer := by
    rw [quad_integrand]
    exact mul_pos hrpos (quad0_pos hp hinner hlt)
  have hr := pyRound_close (N1 * quad (integrand h.rho p) inner outer / quad (integrand h.rho p) a0 a1)
  rw [← hn'] at hr
  generalize quad (integrand h.rho p) inner outer = M at *
  have hm1 := mass_ne_zero (m := quad (integrand h.rho p) a0 a1) (by rw [← hN1]; exact hne)
  generalize quad (integrand h.rho p) a0 a1 = m1 at *
  have e1 : (N1 : ℝ) * M / m1 = N1 / m1 * M := by ring
  have e2 : (N1 : ℝ) * tot / m1 = N1 / m1 * tot := by ring
  rw [e1] at hr
  rw [e2] at hclose
  generalize (N1 : ℝ) / m1 = kappa at *
  generalize (h.counts.sum : ℝ) = N at *
  generalize (h.axes.a.length : ℝ) = len at *
  generalize h.massPtc = mu at *
  have hM' : M = M / tot * (N * mu) := by rw [htm, div_mul_cancel₀ _ htot.ne']
  have hf : 0 < M / tot := div_pos hM htot
  have e3 : (n : ℝ) * mu - M = mu * ((n - kappa * M) - M / tot * (N - kappa * tot)) := by
    have : M / tot * (kappa * tot) = kappa * M := by field_simp
    rw [mul_sub (M / tot), this]
    nlinarith [hM']
  rw [e3, abs_mul, abs_of_pos hmp, mul_div_assoc]
  refine mul_le_mul_of_nonneg_left ?_ hmp.le
  refine (abs_sub _ _).trans ?_
  rw [abs_mul, abs_of_pos hf]
  have := mul_le_mul_of_nonneg_left hclose hf.le
  have e4 : (1 + len * (M / tot)) / 2 = 1 / 2 + M / tot * (len / 2) := by ring
  rw [e4]
  exact add_le_add hr this

/-- The hypotheses hold for two shells and an isothermal profile. -/
example : (Prof.abg 1 2 2 1).Pos ∧ (∀ x ∈ [1, 3], start < x) ∧ [(1 : ℝ), 3].Pairwise (· < ·) ∧
    ∃ h, genHalo 1 10 (.abg 1 2 2 1) ⟨[1, 3], [1, 2], [1, 1]⟩ = .ok h := by
  have hst : start < 1 := by unfold start; norm_num
  have hst0 := start_pos
  have hpi := Real.pi_pos
  have hmem : ∀ x ∈ [(1 : ℝ), 3], start < x := by
    intro x hx
    simp only [List.mem_cons, List.not_mem_nil, or_false] at hx
    rcases hx with rfl | rfl <;> linarith
  refine ⟨by constructor <;> norm_num, hmem, by simp, ?_⟩
  apply C65_no_failure 1 10 one_pos (by norm_num) (.abg 1 2 2 1) (by constructor <;> norm_num) _ (aLast := 3) (a0 := 1)
  · exact hmem
  · simp
  · simp
  · exact two_le_pow 1000
  · rfl
  · rfl
  · have hq : ∀ lo hi : ℝ, 0 < lo → lo ≤ hi → quad (integrand0 (.abg 1 2 2 1)) lo hi = 4 * Real.pi * (hi - lo) := by
      intro lo hi h1 h2
      have := quad_flat 1 lo hi h1 h2
      rw [quad_integrand, one_mul, one_mul] at this
      exact this
    rw [hq 1 3 one_pos (by norm_num), hq start 3 hst0 (by linarith)]
    have h3 : 0 < 3 - start := by linarith
    rw [mul_div_mul_left _ _ (by positivity), ← mul_div_assoc, lt_div_iff₀ h3]
    linarith

end Verif.Mock
