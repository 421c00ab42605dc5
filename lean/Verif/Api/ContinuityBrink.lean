import Verif.Api.ContinuityCentres
import Verif.Api.Moved

/-!
# Centres jump (C185): refutation from constructor to table
-/

namespace Verif.Api

open Verif.Periodic
open Verif (Vec Particle weightedMean totalMass)
open Verif.Units Verif.Catalogue
open Filter Topology

/-- The line `brinkLine`, moved into a box. -/
noncomputable def brinkXyz (t : ℝ) : List (Vec ℝ) :=
  [![2000 - t, 1000, 1000], ![100, 1000, 1000], ![975, 1000, 1000], ![975, 1000, 1000], ![975, 1000, 1000], ![975, 1000, 1000]]

theorem brink_particles (t : ℝ) : particlesOf (brinkXyz t) [1, 1, 1, 1, 1, 1] [0, 1, 2, 3, 4, 5] = translate ![1000, 1000, 1000] (brinkLine t) := by
  have e : ∀ x y : ℝ, x + 1000 = y → (![x, 0, 0] : Vec ℝ) + ![1000, 1000, 1000] = ![y, 1000, 1000] := by
    intro x y h
    funext a
    fin_cases a
    · simpa using h
    · simp
    · show (0 : ℝ) + 1000 = 1000
      norm_num
  simp only [particlesOf, brinkXyz, translate, brinkLine, List.map_cons, List.map_nil]
  rw [e (1000 - t) (2000 - t) (by ring), e (-900) 100 (by norm_num), e (-25) 975 (by norm_num)]
  simp

theorem brink_sensible (t : ℝ) (h0 : 0 ≤ t) (h1 : t ≤ 1) : Sensible (brinkXyz t) [1, 1, 1, 1, 1, 1] 4000 [([0, 1, 2, 3, 4, 5], 100)] := by
  refine ⟨rfl, by norm_num, ?_, by simp, by simp, ?_⟩
  · intro x hx a
    simp only [brinkXyz, List.mem_cons, List.not_mem_nil, or_false] at hx
    rcases hx with rfl | rfl | rfl | rfl | rfl | rfl <;> fin_cases a <;> simp <;> first | (constructor <;> linarith) | norm_num
  · intro o ho i hi
    simp only [List.mem_singleton] at ho
    subst ho
    simp only [List.mem_cons, List.not_mem_nil, or_false] at hi
    simp only [brinkXyz, List.length_cons, List.length_nil]
    omega

theorem brink_narrow (t : ℝ) (h0 : 0 ≤ t) (h1 : t ≤ 1) :
    NotCrossing 4000 (particlesOf (brinkXyz t) [1, 1, 1, 1, 1, 1] [0, 1, 2, 3, 4, 5]) := by
  have hb : ∀ p ∈ particlesOf (brinkXyz t) [1, 1, 1, 1, 1, 1] [0, 1, 2, 3, 4, 5], ∀ a, 100 ≤ p.pos a ∧ p.pos a ≤ 2000 := by
    intro p hp a
    simp only [particlesOf, brinkXyz] at hp
    simp at hp
    rcases hp with rfl | rfl | rfl <;> fin_cases a <;> simp <;> first | (constructor <;> linarith) | norm_num
  intro p hp q hq a
  have h1 := hb p hp a
  have h2 := hb q hq a
  rw [abs_le]
  constructor <;> linarith

theorem brink_approach : DataApproach (𝓝[>] (0 : ℝ)) brinkXyz (fun _ => [1, 1, 1, 1, 1, 1]) (fun _ => [([0, 1, 2, 3, 4, 5], 100)])
    (brinkXyz 0) [1, 1, 1, 1, 1, 1] [([0, 1, 2, 3, 4, 5], 100)] := by
  refine ⟨fun i => rfl, fun k a => ?_, fun k => tendsto_const_nhds, fun i => rfl, fun k => tendsto_const_nhds⟩
  have key : Continuous fun t : ℝ => (brinkXyz t).getD k 0 a := by
    unfold brinkXyz
    match k with
    | 0 | 1 | 2 | 3 | 4 | 5 => fin_cases a <;> simp <;> fun_prop
    | k + 6 => simpa using continuous_const
  exact (key.tendsto 0).mono_left nhdsWithin_le_nhds

/-- C185, from constructor to table.  With CENTER = 'mode' there are sensible arrays of positions, and arrays which approach them (only one particle
moves), such that every call with the former reports the centre 800, 1000, 1000 for the object, and every call with the latter reports one within 1 of
1000, 1000, 1000 (lengths in Mpc/h, masses in 10^10 solar masses/h): centres do not approach. -/
theorem C185_centres_refuted (h : ℝ) (hh : 0 < h) (choose : Nat → List Nat) (hch : ∀ n, 0 < n → ∃ j ∈ choose n, j < n) (limit : Nat) (hlim : 3 ≤ limit) :
    ∃ (xyz : List (Vec ℝ)) (xyzs : ℝ → List (Vec ℝ)) (masses : List ℝ) (objs : List (List Nat × ℝ)) (box : ℝ),
      Sensible xyz masses box objs ∧ (∀ᶠ t in 𝓝[>] (0 : ℝ), Sensible (xyzs t) masses box objs) ∧
      DataApproach (𝓝[>] (0 : ℝ)) xyzs (fun _ => masses) (fun _ => objs) xyz masses objs ∧
      (∀ o out, construct ⟨mpch h, msunh10 h, 1, h, mpch h, msunh10 h, 1⟩
          ⟨xyz, masses, .nested (objs.map Prod.fst), .array (objs.map Prod.snd), box, 6, .mode⟩ = .ok o →
        GetMassesCenters ⟨mpch h, msunh10 h, 1, h, mpch h, msunh10 h, 1⟩ choose limit o [0] out → out = .ok [(![800, 1000, 1000], 6)]) ∧
      ∀ᶠ t in 𝓝[>] (0 : ℝ), ∀ o out, construct ⟨mpch h, msunh10 h, 1, h, mpch h, msunh10 h, 1⟩
          ⟨xyzs t, masses, .nested (objs.map Prod.fst), .array (objs.map Prod.snd), box, 6, .mode⟩ = .ok o →
        GetMassesCenters ⟨mpch h, msunh10 h, 1, h, mpch h, msunh10 h, 1⟩ choose limit o [0] out →
          ∃ v, out = .ok [(v, 6)] ∧ ∀ a, |v a - 1000| ≤ 1 := by
  have hl := mpch_pos hh
  have hms := msunh10_pos hh
  have hcfg : (⟨mpch h, msunh10 h, 1, h, mpch h, msunh10 h, 1⟩ : Cfg ℝ).Pos := ⟨hl, hms, one_pos, hh, hl, hms, one_pos⟩
  have hres : resolved 6 [([0, 1, 2, 3, 4, 5], (100 : ℝ))] = [([0, 1, 2, 3, 4, 5], 100)] := by simp [resolved]
  have hsel : GoodSelection [0] (resolved 6 [([0, 1, 2, 3, 4, 5], (100 : ℝ))]).length := by
    rw [hres]
    exact ⟨by simp, by simp, by simp⟩
  have hsmall : ∀ᶠ t in 𝓝[>] (0 : ℝ), 0 < t ∧ t ≤ 1 := by
    filter_upwards [self_mem_nhdsWithin, mem_nhdsWithin_of_mem_nhds (Iic_mem_nhds (zero_lt_one (α := ℝ)))] with t h1 h2
    exact ⟨h1, h2⟩
  have hmode : ∀ (t x : ℝ), calcMode limit (brinkLine t) 1000 = some ![x, 0, 0] →
      plainCentre limit (1000 * mpch h / mpch h) .mode (particlesOf (brinkXyz t) [1, 1, 1, 1, 1, 1] [0, 1, 2, 3, 4, 5]) = some ![x + 1000, 1000, 1000] := by
    intro t x e
    rw [mul_div_assoc, div_self hl.ne', mul_one]
    show calcMode limit _ 1000 = _
    rw [brink_particles, calcMode_translate _ _ _ _ (by simp [brinkLine]) (by simp [brinkLine]), e]
    show some _ = some _
    congr 1
    funext a
    fin_cases a
    · simp
    · simp
    · show (0 : ℝ) + 1000 = 1000
      norm_num
  have hcall : ∀ (t x : ℝ), 0 ≤ t → t ≤ 1 → calcMode limit (brinkLine t) 1000 = some ![x, 0, 0] →
      ∀ o out, construct ⟨mpch h, msunh10 h, 1, h, mpch h, msunh10 h, 1⟩
          ⟨brinkXyz t, [1, 1, 1, 1, 1, 1], .nested [[0, 1, 2, 3, 4, 5]], .array [100], 4000, 6, .mode⟩ = .ok o →
        GetMassesCenters ⟨mpch h, msunh10 h, 1, h, mpch h, msunh10 h, 1⟩ choose limit o [0] out → out = .ok [(![x + 1000, 1000, 1000], 6)] := by
    intro t x h0 h1 e o out ho hrun
    have hpc := hmode t x e
    rcases centre_rows _ _ hcfg hcfg rfl (brinkXyz t) _ 4000 [([0, 1, 2, 3, 4, 5], 100)] 6 (by norm_num) .mode (brink_sensible t h0 h1) choose hch limit o
      ho [0] hsel (fun z obj hz hob => by
        simp only [List.mem_singleton] at hz
        subst hz
        rw [hres] at hob
        obtain rfl := Option.some.inj hob
        exact brink_narrow t h0 h1) out hrun with ⟨-, z, obj, hz, hob, hn⟩ | ⟨res, hout, hlen, hrows⟩
    · exfalso
      simp only [List.mem_singleton] at hz
      subst hz
      rw [hres] at hob
      obtain rfl := Option.some.inj hob
      exact absurd (hn.symm.trans hpc) (by simp)
    · obtain ⟨v, hv, hr⟩ := hrows 0 0 ([0, 1, 2, 3, 4, 5], 100) rfl (by rw [hres]; rfl)
      rw [hout]
      have ev : v = ![x + 1000, 1000, 1000] := Option.some.inj (hv.symm.trans hpc)
      have em : totalMass (particlesOf (brinkXyz t) [1, 1, 1, 1, 1, 1] [0, 1, 2, 3, 4, 5]) = 6 := by
        simp [particlesOf, brinkXyz, totalMass]
        norm_num
      rw [em, ev] at hr
      simp only [div_self hl.ne', div_self hms.ne', mul_one] at hr
      match res, hlen, hr with
      | [y], _, hr =>
        obtain rfl := Option.some.inj hr
        rfl
  obtain ⟨n, rfl⟩ : ∃ n, limit = n + 3 := ⟨limit - 3, by omega⟩
  refine ⟨brinkXyz 0, brinkXyz, [1, 1, 1, 1, 1, 1], [([0, 1, 2, 3, 4, 5], 100)], 4000, brink_sensible 0 le_rfl zero_le_one,
    hsmall.mono fun t ht => brink_sensible t ht.1.le ht.2, brink_approach, ?_, ?_⟩
  · intro o out ho hrun
    have := hcall 0 (-200) le_rfl zero_le_one (C185_mode_refuted n 1 one_pos le_rfl).1 o out ho hrun
    rw [this]
    norm_num
  · filter_upwards [hsmall] with t ht
    intro o out ho hrun
    refine ⟨_, hcall t (-t / 6) ht.1.le ht.2 (C185_mode_refuted n t ht.1 ht.2).2 o out ho hrun, ?_⟩
    intro a
    fin_cases a
    · show |-t / 6 + 1000 - 1000| ≤ 1
      rw [abs_le]
      constructor <;> linarith [ht.1, ht.2]
    · simp
    · show |(1000 : ℝ) - 1000| ≤ 1
      norm_num

/-- There are such objects and calls. -/
example (h : ℝ) (choose : Nat → List Nat) (t : ℝ) : ∃ o out, construct ⟨mpch h, msunh10 h, 1, h, mpch h, msunh10 h, 1⟩
      ⟨brinkXyz t, [1, 1, 1, 1, 1, 1], .nested [[0, 1, 2, 3, 4, 5]], .array [100], 4000, 6, .mode⟩ = .ok o ∧
    GetMassesCenters ⟨mpch h, msunh10 h, 1, h, mpch h, msunh10 h, 1⟩ choose 1000 o [0] out := by
  have := construct_eq ⟨mpch h, msunh10 h, 1, h, mpch h, msunh10 h, 1⟩ (brinkXyz t) [1, 1, 1, 1, 1, 1] 4000 [([0, 1, 2, 3, 4, 5], 100)] 6 .mode rfl (by simp)
  obtain ⟨out, hout⟩ := C95_outcome_exists ⟨mpch h, msunh10 h, 1, h, mpch h, msunh10 h, 1⟩ choose 1000 _ [0]
  exact ⟨_, out, this, hout⟩

end Verif.Api
