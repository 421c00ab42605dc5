import Verif.Api.Agree

/-!
# Enclosed masses do not depend on the bins (C186)
-/

namespace Verif.Api

open Verif.Periodic Verif.Binning
open Verif (Vec Particle weightedMean totalMass)
open Verif.Units Verif.Catalogue

theorem profile_total (c c' : Cfg ℝ) (radii : List ℝ) (hradii : radii ≠ []) (hinc : radii.Pairwise (· < ·)) (hpos : ∀ r ∈ radii, 1e-8 < r)
    (v : Vec ℝ) (ps : List (Particle ℝ)) (r200 : ℝ) (hr : 0 < r200) (row : List ℝ) (hrl : row.length = radii.length)
    (hd : ∀ (b : Nat) (dens : ℝ), row[b]? = some dens →
      dens * (c'.outM / c'.outL ^ 3) * shellVolume (lowerEdge radii b * r200 * c.inL) (upperEdge radii b * r200 * c.inL) =
        massBetween v ps (lowerEdge radii b * r200) (upperEdge radii b * r200) * c.inM) :
    massOfProfile c' radii (r200 * c.inL) row = massBetween v ps (1e-8 * r200) (radii.getLast hradii * r200) * c.inM := by
  obtain ⟨e, he0, hen, he⟩ := edges_chain radii hradii hinc hpos
  have := (massBetween_chain v ps (fun b => e b * r200) radii.length (fun b hb => mul_le_mul_of_nonneg_right (he b hb).2.2 hr.le)).1
  simp only [he0, hen] at this
  rw [← this, Finset.sum_mul]
  refine Finset.sum_congr rfl fun b hb => ?_
  rw [Finset.mem_range] at hb
  rw [(he b hb).1, (he b hb).2.1, ← mul_assoc, ← mul_assoc]
  apply hd
  rw [List.getD_eq_getElem?_getD, List.getElem?_eq_getElem (show b < row.length by omega)]
  rfl

theorem massBetween_mono (v : Vec ℝ) (ps : List (Particle ℝ)) (hm : ∀ p ∈ ps, 0 < p.mass) (lo hi hi' : ℝ) (h1 : lo ≤ hi) (h2 : hi ≤ hi') :
    massBetween v ps lo hi ≤ massBetween v ps lo hi' := by
  rw [← massBetween_add v ps lo hi hi' h1 h2]
  refine le_add_of_nonneg_right (List.sum_nonneg ?_)
  intro x hx
  obtain ⟨p, hp, rfl⟩ := List.mem_map.1 hx
  exact (hm p (List.mem_filter.1 hp).1).le

/-- C186 (bins).  Two calls of estDensProfs on one object, with different radii (numbers and positions of bins), units and schedules: for every selected
object which crosses no face, the shells of one profile together contain at most the mass in the shells of the other if the latter reaches at least as
far; so profiles which reach equally far contain the same mass, whatever the bins. -/
theorem C186_bins (c c' c'' : Cfg ℝ) (hc : c.Pos) (hc' : c'.Pos) (hc'' : c''.Pos) (hh : c'.h = c.h) (hh' : c''.h = c.h)
    (xyz : List (Vec ℝ)) (masses : List ℝ) (box : ℝ) (objs : List (List Nat × ℝ)) (minPtcs : Int) (hmin : 1 ≤ minPtcs) (center : Center)
    (hs : Sensible xyz masses box objs) (hr200 : ∀ o ∈ objs, 0 < o.2)
    (choose : Nat → List Nat) (hch : ∀ n, 0 < n → ∃ j ∈ choose n, j < n) (limit : Nat) (o : Obj)
    (ho : construct c ⟨xyz, masses, .nested (objs.map Prod.fst), .array (objs.map Prod.snd), box, minPtcs, center⟩ = .ok o)
    (radii : List ℝ) (hradii : radii ≠ []) (hinc : radii.Pairwise (· < ·)) (hpos : ∀ r ∈ radii, 1e-8 < r)
    (radii' : List ℝ) (hradii' : radii' ≠ []) (hinc' : radii'.Pairwise (· < ·)) (hpos' : ∀ r ∈ radii', 1e-8 < r)
    (hfar : radii.getLast hradii ≤ radii'.getLast hradii')
    (sel : List Int) (hsel : GoodSelection sel (resolved minPtcs objs).length)
    (res res' : List (List ℝ)) (hrun : EstDensProfs c' choose limit o radii sel (.ok res)) (hrun' : EstDensProfs c'' choose limit o radii' sel (.ok res')) :
    ∀ (k : Nat) (z : Int) (obj : List Nat × ℝ), sel[k]? = some z → (resolved minPtcs objs)[z.toNat]? = some obj →
      NotCrossing box (particlesOf xyz masses obj.1) →
      ∃ row row', res[k]? = some row ∧ res'[k]? = some row' ∧
        massOfProfile c' radii (obj.2 * c.inL) row ≤ massOfProfile c'' radii' (obj.2 * c.inL) row' ∧
        (radii.getLast hradii = radii'.getLast hradii' →
          massOfProfile c' radii (obj.2 * c.inL) row = massOfProfile c'' radii' (obj.2 * c.inL) row') := by
  intro k z obj hz hob hnc
  rcases density_rows c c' hc hc' hh xyz masses box objs minPtcs hmin center hs hr200 choose hch limit o ho radii hradii hinc hpos sel hsel _ hrun with
    ⟨h, -⟩ | ⟨res₁, h, -, hrows⟩
  · cases h
  obtain rfl : res = res₁ := by cases h; rfl
  rcases density_rows c c'' hc hc'' hh' xyz masses box objs minPtcs hmin center hs hr200 choose hch limit o ho radii' hradii' hinc' hpos' sel hsel _ hrun' with
    ⟨h, -⟩ | ⟨res₁, h, -, hrows'⟩
  · cases h
  obtain rfl : res' = res₁ := by cases h; rfl
  obtain ⟨row, hrow, hrl, v, hv, hd⟩ := hrows k z obj hz hob hnc
  obtain ⟨row', hrow', hrl', v', hv', hd'⟩ := hrows' k z obj hz hob hnc
  obtain rfl : v = v' := Option.some.inj (hv.symm.trans hv')
  have hr : 0 < obj.2 := by
    have := List.mem_of_getElem? hob
    exact hr200 obj (List.mem_filter.1 this).1
  refine ⟨row, row', hrow, hrow', ?_, ?_⟩
  · rw [profile_total c c' radii hradii hinc hpos v _ obj.2 hr row hrl hd, profile_total c c'' radii' hradii' hinc' hpos' v _ obj.2 hr row' hrl' hd']
    refine mul_le_mul_of_nonneg_right (massBetween_mono v _ (fun p hp => hs.masses_pos _ (mem_particlesOf hp).2) _ _ _ ?_ ?_) hc.inM.le
    · exact mul_le_mul_of_nonneg_right (hpos _ (List.getLast_mem hradii)).le hr.le
    · exact mul_le_mul_of_nonneg_right hfar hr.le
  · intro e
    rw [profile_total c c' radii hradii hinc hpos v _ obj.2 hr row hrl hd, profile_total c c'' radii' hradii' hinc' hpos' v _ obj.2 hr row' hrl' hd', e]

/-- The cross with two bins and with one bin, both up to 0.1 R200: the same mass. -/
example (h : ℝ) (hh : 0 < h) (choose : Nat → List Nat) (hch : ∀ n, 0 < n → ∃ j ∈ choose n, j < n) (limit : Nat) (o : Obj)
    (ho : construct ⟨mpch h, msunh10 h, 1, h, mpch h, msunh10 h, 1⟩
      ⟨crossXyz, [1, 1, 1, 1, 1, 1], .nested [[0, 1, 2, 3, 4, 5]], .array [100], 20, 6, .com⟩ = .ok o) (row row' : List ℝ)
    (hrun : EstDensProfs ⟨mpch h, msunh10 h, 1, h, mpch h, msunh10 h, 1⟩ choose limit o [1 / 100, 1 / 10] [0] (.ok [row]))
    (hrun' : EstDensProfs ⟨mpch h, msunh10 h, 1, h, mpch h, msunh10 h, 1⟩ choose limit o [1 / 10] [0] (.ok [row'])) :
    massOfProfile ⟨mpch h, msunh10 h, 1, h, mpch h, msunh10 h, 1⟩ [1 / 100, 1 / 10] (100 * mpch h) row =
      massOfProfile ⟨mpch h, msunh10 h, 1, h, mpch h, msunh10 h, 1⟩ [1 / 10] (100 * mpch h) row' := by
  have hl := mpch_pos hh
  have hms := msunh10_pos hh
  have hcfg : (⟨mpch h, msunh10 h, 1, h, mpch h, msunh10 h, 1⟩ : Cfg ℝ).Pos := ⟨hl, hms, one_pos, hh, hl, hms, one_pos⟩
  have hres : resolved 6 [([0, 1, 2, 3, 4, 5], (100 : ℝ))] = [([0, 1, 2, 3, 4, 5], 100)] := by simp [resolved]
  have hsel : GoodSelection [0] (resolved 6 [([0, 1, 2, 3, 4, 5], (100 : ℝ))]).length := by
    rw [hres]
    exact ⟨by simp, by simp, by simp⟩
  obtain ⟨r, r', h1, h2, -, h3⟩ := C186_bins _ _ _ hcfg hcfg hcfg rfl rfl crossXyz [1, 1, 1, 1, 1, 1] 20 [([0, 1, 2, 3, 4, 5], 100)] 6 (by norm_num) .com
    cross_sensible (by simp) choose hch limit o ho [1 / 100, 1 / 10] (by simp) (by simp; norm_num) (by
      intro r hr
      simp only [List.mem_cons, List.not_mem_nil, or_false] at hr
      rcases hr with rfl | rfl <;> norm_num) [1 / 10] (by simp) (by simp) (by
      intro r hr
      rw [List.mem_singleton] at hr
      rw [hr]; norm_num) (by simp) [0] hsel _ _ hrun hrun' 0 0 ([0, 1, 2, 3, 4, 5], 100) rfl (by rw [hres]; rfl) (by
      intro p hp q hq a
      have h1 := cross_bounds p hp a
      have h2 := cross_bounds q hq a
      rw [abs_le]
      constructor <;> linarith)
  obtain rfl := Option.some.inj h1
  obtain rfl := Option.some.inj h2
  exact h3 (by simp)

end Verif.Api
