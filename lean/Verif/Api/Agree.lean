import Verif.Api.ContinuityMode

/-!
# Masses, centres and density profiles agree with each other (C186)
-/

namespace Verif.Api

open Verif.Periodic Verif.Binning
open Verif (Vec Particle weightedMean totalMass)
open Verif.Units Verif.Catalogue

/-! ## Specification -/

/-- The mass contained in all shells of a reported profile, in g: densities times volumes of the shells of an object of radius `r200` (in cm). -/
noncomputable def massOfProfile (c : Cfg ℝ) (radii : List ℝ) (r200 : ℝ) (row : List ℝ) : ℝ :=
  ∑ b ∈ Finset.range radii.length, row.getD b 0 * (c.outM / c.outL ^ 3) * shellVolume (lowerEdge radii b * r200) (upperEdge radii b * r200)

/-! ## Proof -/

theorem massBetween_chain (v : Vec ℝ) (ps : List (Particle ℝ)) (e : ℕ → ℝ) (n : ℕ) (h : ∀ b < n, e b ≤ e (b + 1)) :
    ∑ b ∈ Finset.range n, massBetween v ps (e b) (e (b + 1)) = massBetween v ps (e 0) (e n) ∧ e 0 ≤ e n := by
  induction n with
  | zero =>
    refine ⟨?_, le_rfl⟩
    unfold massBetween
    rw [Finset.sum_range_zero, List.filter_eq_nil_iff.2]
    · rfl
    · intro p _
      simp
  | succ n ih =>
    obtain ⟨h1, h2⟩ := ih fun b hb => h b (by omega)
    have h3 := h n (by omega)
    rw [Finset.sum_range_succ, h1, massBetween_add v ps _ _ _ h2 h3]
    exact ⟨rfl, h2.trans h3⟩

theorem edges_chain (radii : List ℝ) (hne : radii ≠ []) (hinc : radii.Pairwise (· < ·)) (hpos : ∀ r ∈ radii, 1e-8 < r) :
    ∃ e : ℕ → ℝ, e 0 = 1e-8 ∧ e radii.length = radii.getLast hne ∧ ∀ b < radii.length, e b = lowerEdge radii b ∧ e (b + 1) = upperEdge radii b ∧ e b ≤ e (b + 1) := by
  have hn : 0 < radii.length := List.length_pos_iff.2 hne
  have hlt : ∀ (i j : Nat) (hij : i < j) (hj : j < radii.length), radii[i] < radii[j] := fun i j hij hj => List.pairwise_iff_getElem.1 hinc i j (by omega) hj hij
  have hp : ∀ (i : Nat) (hi : i < radii.length), 1e-8 < radii[i] := fun i hi => hpos _ (List.getElem_mem hi)
  refine ⟨fun b => if b = radii.length then radii.getLast hne else lowerEdge radii b, ?_, ?_, ?_⟩
  · show (if 0 = radii.length then _ else _) = _
    rw [if_neg (by omega)]
    rfl
  · simp
  intro b hb
  have e1 : (if b + 1 = radii.length then radii.getLast hne else lowerEdge radii (b + 1)) = upperEdge radii b := by
    unfold upperEdge
    split
    · next h =>
      rw [List.getLast_eq_getElem, List.getElem?_eq_getElem hb]
      simp [← h]
    · next h =>
      unfold lowerEdge
      rw [if_neg (by omega), Nat.add_sub_cancel]
  have e0 : (if b = radii.length then radii.getLast hne else lowerEdge radii b) = lowerEdge radii b := if_neg (by omega)
  refine ⟨e0, e1, ?_⟩
  simp only [e0, e1]
  have hL : lowerEdge radii b ≤ radii[b] := by
    unfold lowerEdge
    split
    · exact (hp b hb).le
    · next h =>
      rw [List.getElem?_eq_getElem hb, List.getElem?_eq_getElem (show b - 1 < radii.length by omega)]
      have := hlt (b - 1) b (by omega) hb
      simp only [Option.getD_some]
      linarith
  have hU : radii[b] ≤ upperEdge radii b := by
    unfold upperEdge
    split
    · rw [List.getElem?_eq_getElem hb]
      exact le_rfl
    · next h =>
      rw [List.getElem?_eq_getElem hb, List.getElem?_eq_getElem (show b + 1 < radii.length by omega)]
      have := hlt b (b + 1) (by omega) (by omega)
      simp only [Option.getD_some]
      linarith
  exact hL.trans hU

theorem massBetween_le (v : Vec ℝ) (ps : List (Particle ℝ)) (hm : ∀ p ∈ ps, 0 < p.mass) (lo hi : ℝ) :
    massBetween v ps lo hi ≤ totalMass ps ∧
    (massBetween v ps lo hi = totalMass ps ↔ ∀ p ∈ ps, lo ≤ radius v p ∧ radius v p < hi) := by
  induction ps with
  | nil => simp [massBetween, totalMass]
  | cons p ps ih =>
    obtain ⟨h1, h2⟩ := ih fun q hq => hm q (List.mem_cons_of_mem _ hq)
    have hp := hm p List.mem_cons_self
    have et : totalMass (p :: ps) = p.mass + totalMass ps := by simp [totalMass]
    by_cases h : lo ≤ radius v p ∧ radius v p < hi
    · have e : massBetween v (p :: ps) lo hi = p.mass + massBetween v ps lo hi := by
        unfold massBetween
        rw [List.filter_cons_of_pos (by simpa using h)]
        simp
      rw [e, et]
      refine ⟨by linarith, ?_⟩
      rw [add_right_inj, h2, List.forall_mem_cons]
      exact ⟨fun h' => ⟨h, h'⟩, fun h' => h'.2⟩
    · have e : massBetween v (p :: ps) lo hi = massBetween v ps lo hi := by
        unfold massBetween
        rw [List.filter_cons_of_neg (by simpa using h)]
      rw [e, et]
      refine ⟨by linarith, ⟨fun h' => by linarith, fun h' => absurd (h' p List.mem_cons_self) h⟩⟩

/-- C186. Take any sensible arrays, an object made from them, units, and a selection of objects which cross no face.  If getMassesCenters returns
centres and masses for the selection (units `c'`), then estDensProfs returns profiles for it (units `c''`), whatever the schedules; each profile is
the one about the centre returned (mass in the shell divided by its volume); and the shells together contain at most the mass returned, and exactly
this mass if and only if all particles are between the innermost and the outermost edge. -/
theorem C186_binned (c c' c'' : Cfg ℝ) (hc : c.Pos) (hc' : c'.Pos) (hc'' : c''.Pos) (hh : c'.h = c.h) (hh' : c''.h = c.h)
    (xyz : List (Vec ℝ)) (masses : List ℝ) (box : ℝ) (objs : List (List Nat × ℝ)) (minPtcs : Int) (hmin : 1 ≤ minPtcs) (center : Center)
    (hs : Sensible xyz masses box objs) (hr200 : ∀ o ∈ objs, 0 < o.2)
    (choose : Nat → List Nat) (hch : ∀ n, 0 < n → ∃ j ∈ choose n, j < n) (limit : Nat) (o : Obj)
    (ho : construct c ⟨xyz, masses, .nested (objs.map Prod.fst), .array (objs.map Prod.snd), box, minPtcs, center⟩ = .ok o)
    (radii : List ℝ) (hradii : radii ≠ []) (hinc : radii.Pairwise (· < ·)) (hpos : ∀ r ∈ radii, 1e-8 < r)
    (sel : List Int) (hsel : GoodSelection sel (resolved minPtcs objs).length)
    (hnc : ∀ (z : Int) (obj : List Nat × ℝ), z ∈ sel → (resolved minPtcs objs)[z.toNat]? = some obj → NotCrossing box (particlesOf xyz masses obj.1))
    (mcs : List (Vec ℝ × ℝ)) (hrun : GetMassesCenters c' choose limit o sel (.ok mcs))
    (out : Except Err (List (List ℝ))) (hrun' : EstDensProfs c'' choose limit o radii sel out) :
    ∃ res, out = .ok res ∧ res.length = mcs.length ∧ mcs.length = sel.length ∧
      ∀ (k : Nat) (z : Int) (obj : List Nat × ℝ) (centre : Vec ℝ) (mass : ℝ) (row : List ℝ), sel[k]? = some z →
        (resolved minPtcs objs)[z.toNat]? = some obj → mcs[k]? = some (centre, mass) → res[k]? = some row →
        row.length = radii.length ∧
        (∀ (b : Nat) (dens : ℝ), row[b]? = some dens →
          dens * (c''.outM / c''.outL ^ 3) * shellVolume (lowerEdge radii b * (obj.2 * c.inL)) (upperEdge radii b * (obj.2 * c.inL)) =
            massBetween (fun a => centre a * c'.outL / c.inL) (particlesOf xyz masses obj.1) (lowerEdge radii b * obj.2) (upperEdge radii b * obj.2) * c.inM) ∧
        massOfProfile c'' radii (obj.2 * c.inL) row ≤ mass * c'.outM ∧
        (massOfProfile c'' radii (obj.2 * c.inL) row = mass * c'.outM ↔
          ∀ p ∈ particlesOf xyz masses obj.1, 1e-8 * obj.2 ≤ radius (fun a => centre a * c'.outL / c.inL) p ∧
            radius (fun a => centre a * c'.outL / c.inL) p < radii.getLast hradii * obj.2) := by
  have hrad : 1000 * mpch c.h / c.inL = 1000 / (c.inL / mpch c.h) := by rw [div_div_eq_mul_div]
  rcases centre_rows c c' hc hc' hh xyz masses box objs minPtcs hmin center hs choose hch limit o ho sel hsel hnc _ hrun with ⟨h, -⟩ | ⟨res₀, h, hlen, hrows⟩
  · cases h
  obtain rfl : mcs = res₀ := by cases h; rfl
  have hnum : ∀ z ∈ sel, ∃ obj, (resolved minPtcs objs)[z.toNat]? = some obj := by
    intro z hz
    have := hsel.2.2 z hz
    exact ⟨_, List.getElem?_eq_getElem (show z.toNat < (resolved minPtcs objs).length by omega)⟩
  rcases density_rows c c'' hc hc'' hh' xyz masses box objs minPtcs hmin center hs hr200 choose hch limit o ho radii hradii hinc hpos sel hsel out hrun' with
    ⟨-, z, obj, hz, hob, hn⟩ | ⟨res, hout, hlen', hrows'⟩
  · exfalso
    obtain ⟨k, hk, rfl⟩ := List.getElem_of_mem hz
    obtain ⟨v, hv, -⟩ := hrows k _ obj (List.getElem?_eq_getElem hk) hob
    rw [hrad] at hv
    exact absurd ((hn (hnc _ obj hz hob)).symm.trans hv) (by simp)
  refine ⟨res, hout, hlen'.trans hlen.symm, hlen, ?_⟩
  intro k z obj centre mass row hz hob hmc hrow
  have hzs := List.mem_of_getElem? hz
  obtain ⟨v, hv, hx⟩ := hrows k z obj hz hob
  obtain ⟨row', hrow', hrl, v', hv', hdens⟩ := hrows' k z obj hz hob (hnc z obj hzs hob)
  obtain rfl : row = row' := Option.some.inj (hrow.symm.trans hrow')
  rw [hrad] at hv
  obtain rfl : v = v' := Option.some.inj (hv.symm.trans hv')
  have hcm := Option.some.inj (hmc.symm.trans hx)
  have hcen : (fun a => centre a * c'.outL / c.inL) = v := by
    funext a
    rw [show centre = _ from (Prod.ext_iff.1 hcm).1]
    have h1 := hc.inL.ne'
    have h2 := hc'.outL.ne'
    show v a * (c.inL / c'.outL) * c'.outL / c.inL = v a
    field_simp
  have hmass : mass * c'.outM = totalMass (particlesOf xyz masses obj.1) * c.inM := by
    rw [show mass = _ from (Prod.ext_iff.1 hcm).2]
    have h2 := hc'.outM.ne'
    show totalMass (particlesOf xyz masses obj.1) * (c.inM / c'.outM) * c'.outM = _
    field_simp
  rw [hcen]
  have hr : 0 < obj.2 := by
    have := List.mem_of_getElem? hob
    exact hr200 obj (List.mem_filter.1 this).1
  have hd : ∀ (b : Nat) (dens : ℝ), row[b]? = some dens →
          dens * (c''.outM / c''.outL ^ 3) * shellVolume (lowerEdge radii b * (obj.2 * c.inL)) (upperEdge radii b * (obj.2 * c.inL)) =
            massBetween v (particlesOf xyz masses obj.1) (lowerEdge radii b * obj.2) (upperEdge radii b * obj.2) * c.inM := by
    intro b dens hb
    have := hdens b dens hb
    rwa [mul_assoc (lowerEdge radii b), mul_assoc (upperEdge radii b)] at this
  obtain ⟨e, he0, hen, he⟩ := edges_chain radii hradii hinc hpos
  have hsum : massOfProfile c'' radii (obj.2 * c.inL) row =
      massBetween v (particlesOf xyz masses obj.1) (1e-8 * obj.2) (radii.getLast hradii * obj.2) * c.inM := by
    have := (massBetween_chain v (particlesOf xyz masses obj.1) (fun b => e b * obj.2) radii.length
      (fun b hb => mul_le_mul_of_nonneg_right (he b hb).2.2 hr.le)).1
    simp only [he0, hen] at this
    rw [← this, Finset.sum_mul]
    refine Finset.sum_congr rfl fun b hb => ?_
    rw [Finset.mem_range] at hb
    rw [(he b hb).1, (he b hb).2.1]
    apply hd
    rw [List.getD_eq_getElem?_getD, List.getElem?_eq_getElem (show b < row.length by omega)]
    rfl
  have hle := massBetween_le v (particlesOf xyz masses obj.1) (fun p hp => hs.masses_pos _ (mem_particlesOf hp).2) (1e-8 * obj.2) (radii.getLast hradii * obj.2)
  refine ⟨hrl, hd, ?_, ?_⟩
  · rw [hsum, hmass]
    exact mul_le_mul_of_nonneg_right hle.1 hc.inM.le
  · rw [hsum, hmass, mul_left_inj' hc.inM.ne']
    exact hle.2

/-- C186, kernel-based profiles.  If getMassesCenters returns centres and masses, then estDensProfs(direct_binning=False) returns profiles unless a
particle is exactly at the centre of its object; each is the smoothed density about the centre returned, which integrated over space gives the mass
returned. -/
theorem C186_kernel (c c' c'' : Cfg ℝ) (hc : c.Pos) (hc' : c'.Pos) (hc'' : c''.Pos) (hh : c'.h = c.h) (hh' : c''.h = c.h)
    (xyz : List (Vec ℝ)) (masses : List ℝ) (box : ℝ) (objs : List (List Nat × ℝ)) (minPtcs : Int) (hmin : 1 ≤ minPtcs) (center : Center)
    (hs : Sensible xyz masses box objs) (hr200 : ∀ o ∈ objs, 0 < o.2)
    (choose : Nat → List Nat) (hch : ∀ n, 0 < n → ∃ j ∈ choose n, j < n) (limit : Nat) (o : Obj)
    (ho : construct c ⟨xyz, masses, .nested (objs.map Prod.fst), .array (objs.map Prod.snd), box, minPtcs, center⟩ = .ok o)
    (radii : List ℝ) (hradii : radii ≠ []) (hpos : ∀ r ∈ radii, 0 < r)
    (sel : List Int) (hsel : GoodSelection sel (resolved minPtcs objs).length)
    (hnc : ∀ (z : Int) (obj : List Nat × ℝ), z ∈ sel → (resolved minPtcs objs)[z.toNat]? = some obj → NotCrossing box (particlesOf xyz masses obj.1))
    (mcs : List (Vec ℝ × ℝ)) (hrun : GetMassesCenters c' choose limit o sel (.ok mcs))
    (out : Except KernelErr (List (List ℝ))) (hrun' : EstDensProfsKernel c'' choose limit o radii sel out) :
    (out = .error .zeroDivision ∧ ∃ (k : Nat) (z : Int) (obj : List Nat × ℝ) (x : Vec ℝ × ℝ), sel[k]? = some z ∧
      (resolved minPtcs objs)[z.toNat]? = some obj ∧ mcs[k]? = some x ∧
        ∃ p ∈ particlesOf xyz masses obj.1, ∀ a, p.pos a * c.inL = x.1 a * c'.outL) ∨
    ∃ res, out = .ok res ∧ res.length = mcs.length ∧ mcs.length = sel.length ∧
      ∀ (k : Nat) (z : Int) (obj : List Nat × ℝ) (centre : Vec ℝ) (mass : ℝ) (row : List ℝ), sel[k]? = some z →
        (resolved minPtcs objs)[z.toNat]? = some obj → mcs[k]? = some (centre, mass) → res[k]? = some row →
        row.length = radii.length ∧
        (∀ (b : Nat) (dens r : ℝ), row[b]? = some dens → radii[b]? = some r →
          dens * (c''.outM / c''.outL ^ 3) =
            smoothedDensity obj.2 (fun a => centre a * c'.outL / c.inL) (particlesOf xyz masses obj.1) (r * obj.2) * (c.inM / c.inL ^ 3)) ∧
        (∫ r in Set.Ioi (0 : ℝ), 4 * Real.pi * r ^ 2 *
          smoothedDensity obj.2 (fun a => centre a * c'.outL / c.inL) (particlesOf xyz masses obj.1) r) * c.inM = mass * c'.outM := by
  have hrad : 1000 * mpch c.h / c.inL = 1000 / (c.inL / mpch c.h) := by rw [div_div_eq_mul_div]
  rcases centre_rows c c' hc hc' hh xyz masses box objs minPtcs hmin center hs choose hch limit o ho sel hsel hnc _ hrun with ⟨h, -⟩ | ⟨res₀, h, hlen, hrows⟩
  · cases h
  obtain rfl : mcs = res₀ := by cases h; rfl
  rcases kernel_rows c c'' hc hc'' hh' xyz masses box objs minPtcs hmin center hs hr200 choose hch limit o ho radii hradii hpos sel hsel out hrun' with
    ⟨-, z, obj, hz, hob, hn⟩ | ⟨hout, z, hz, obj, hob, hn⟩ | ⟨res, hout, hlen', hrows'⟩
  · exfalso
    obtain ⟨k, hk, rfl⟩ := List.getElem_of_mem hz
    obtain ⟨v, hv, -⟩ := hrows k _ obj (List.getElem?_eq_getElem hk) hob
    rw [hrad] at hv
    exact absurd ((hn (hnc _ obj hz hob)).symm.trans hv) (by simp)
  · left
    refine ⟨hout, ?_⟩
    have hn := hn (hnc _ obj hz hob)
    obtain ⟨k, hk, rfl⟩ := List.getElem_of_mem hz
    obtain ⟨v, hv, hx⟩ := hrows k _ obj (List.getElem?_eq_getElem hk) hob
    rw [hrad] at hv
    obtain ⟨v', hv', p, hp, hpv⟩ := hn
    obtain rfl : v = v' := Option.some.inj (hv.symm.trans hv')
    refine ⟨k, _, obj, _, List.getElem?_eq_getElem hk, hob, hx, p, hp, fun a => ?_⟩
    rw [hpv]
    have h2 := hc'.outL.ne'
    show v a * c.inL = v a * (c.inL / c'.outL) * c'.outL
    field_simp
  right
  refine ⟨res, hout, hlen'.trans hlen.symm, hlen, ?_⟩
  intro k z obj centre mass row hz hob hmc hrow
  have hzs := List.mem_of_getElem? hz
  obtain ⟨v, hv, hx⟩ := hrows k z obj hz hob
  obtain ⟨row', hrow', hrl, v', hv', hoff, hdens⟩ := hrows' k z obj hz hob (hnc z obj hzs hob)
  obtain rfl : row = row' := Option.some.inj (hrow.symm.trans hrow')
  rw [hrad] at hv
  obtain rfl : v = v' := Option.some.inj (hv.symm.trans hv')
  have hcm := Option.some.inj (hmc.symm.trans hx)
  have hcen : (fun a => centre a * c'.outL / c.inL) = v := by
    funext a
    rw [show centre = _ from (Prod.ext_iff.1 hcm).1]
    have h1 := hc.inL.ne'
    have h2 := hc'.outL.ne'
    show v a * (c.inL / c'.outL) * c'.outL / c.inL = v a
    field_simp
  have hmass : mass * c'.outM = totalMass (particlesOf xyz masses obj.1) * c.inM := by
    rw [show mass = _ from (Prod.ext_iff.1 hcm).2]
    have h2 := hc'.outM.ne'
    show totalMass (particlesOf xyz masses obj.1) * (c.inM / c'.outM) * c'.outM = _
    field_simp
  rw [hcen]
  have hr : 0 < obj.2 := by
    have := List.mem_of_getElem? hob
    exact hr200 obj (List.mem_filter.1 this).1
  refine ⟨hrl, hdens, ?_⟩
  rw [smoothed_mass obj.2 hr v _ (fun p hp => radius_pos (hoff p hp)), hmass]

/-- The cross (six particles at distances 1 to 3 from its centre, R200 = 100) meets the conditions of `C186_binned` with radii 0.01 and 0.1 R200, with
either definition of the centre. -/
example (h : ℝ) (hh : 0 < h) (center : Center) (choose : Nat → List Nat) (hch : ∀ n, 0 < n → ∃ j ∈ choose n, j < n) (limit : Nat) (o : Obj)
    (ho : construct ⟨mpch h, msunh10 h, 1, h, mpch h, msunh10 h, 1⟩
      ⟨crossXyz, [1, 1, 1, 1, 1, 1], .nested [[0, 1, 2, 3, 4, 5]], .array [100], 20, 6, center⟩ = .ok o) (centre : Vec ℝ) (mass : ℝ)
    (hrun : GetMassesCenters ⟨mpch h, msunh10 h, 1, h, mpch h, msunh10 h, 1⟩ choose limit o [0] (.ok [(centre, mass)]))
    (out : Except Err (List (List ℝ))) (hrun' : EstDensProfs ⟨mpch h, msunh10 h, 1, h, mpch h, msunh10 h, 1⟩ choose limit o [1 / 100, 1 / 10] [0] out) :
    ∃ row, out = .ok [row] ∧ row.length = 2 ∧
      massOfProfile ⟨mpch h, msunh10 h, 1, h, mpch h, msunh10 h, 1⟩ [1 / 100, 1 / 10] (100 * mpch h) row ≤ mass * msunh10 h := by
  have hl := mpch_pos hh
  have hms := msunh10_pos hh
  have hcfg : (⟨mpch h, msunh10 h, 1, h, mpch h, msunh10 h, 1⟩ : Cfg ℝ).Pos := ⟨hl, hms, one_pos, hh, hl, hms, one_pos⟩
  have hres : resolved 6 [([0, 1, 2, 3, 4, 5], (100 : ℝ))] = [([0, 1, 2, 3, 4, 5], 100)] := by simp [resolved]
  have hsel : GoodSelection [0] (resolved 6 [([0, 1, 2, 3, 4, 5], (100 : ℝ))]).length := by
    rw [hres]
    exact ⟨by simp, by simp, by simp⟩
  obtain ⟨res, hout, hlen, -, hrows⟩ := C186_binned _ _ _ hcfg hcfg hcfg rfl rfl crossXyz [1, 1, 1, 1, 1, 1] 20 [([0, 1, 2, 3, 4, 5], 100)] 6 (by norm_num) center
    cross_sensible (by simp) choose hch limit o ho [1 / 100, 1 / 10] (by simp) (by simp; norm_num) (by
      intro r hr
      simp only [List.mem_cons, List.not_mem_nil, or_false] at hr
      rcases hr with rfl | rfl <;> norm_num) [0] hsel (fun z obj hz hob => by
      simp only [List.mem_singleton] at hz
      subst hz
      rw [hres] at hob
      obtain rfl := Option.some.inj hob
      intro p hp q hq a
      have h1 := cross_bounds p hp a
      have h2 := cross_bounds q hq a
      rw [abs_le]
      constructor <;> linarith) _ hrun out hrun'
  match res, hlen with
  | [row], _ =>
    obtain ⟨h1, -, h2, -⟩ := hrows 0 0 ([0, 1, 2, 3, 4, 5], 100) centre mass row rfl (by rw [hres]; rfl) rfl rfl
    exact ⟨row, hout, h1, h2⟩

end Verif.Api
