import Verif.Api.ContinuityCentres

/-!
# Density profiles under small changes of the data, for either definition of the centre (C184)
-/

namespace Verif.Api

open Verif.Binning (radius massBetween shellVolume nth nth_mem mass_near densKernel kernelWidth bins sphEdges C30_edges C27_profile kernelWidth_pos aloneProfile)
open Verif (Vec Particle weightedMean totalMass)
open Verif.Units
open Verif.Catalogue Verif.Periodic
open Filter Topology

/-! ## Rows of the tables in terms of the centre -/

theorem est_diverges (c c' : Cfg ℝ) (hc : c.Pos)
    (xyz : List (Vec ℝ)) (masses : List ℝ) (box : ℝ) (objs : List (List Nat × ℝ)) (minPtcs : Int)
    (hmin : 1 ≤ minPtcs) (center : Center) (hs : Sensible xyz masses box objs)
    (choose : Nat → List Nat) (hch : ∀ n, 0 < n → ∃ j ∈ choose n, j < n) (limit : Nat) (o : Obj)
    (ho : construct c ⟨xyz, masses, .nested (objs.map Prod.fst), .array (objs.map Prod.snd), box,
      minPtcs, center⟩ = .ok o)
    (radii : List ℝ) (sel : List Int) (hsel : GoodSelection sel (resolved minPtcs objs).length)
    (hrun : EstDensProfs c' choose limit o radii sel (.error .recursion)) :
    ∃ (z : Int) (obj : List Nat × ℝ), z ∈ sel ∧ (resolved minPtcs objs)[z.toNat]? = some obj ∧
      (NotCrossing box (particlesOf xyz masses obj.1) →
        plainCentre limit (1000 / (c.inL / mpch c.h)) center (particlesOf xyz masses obj.1) = none) := by
  rw [construct_eq c xyz masses box objs minPtcs center hs.lengths hs.objects] at ho
  have ho := Except.ok.inj ho
  set f := c.inL / mpch c.h with hf
  set g := c.inM / msunh10 c.h with hg
  have hfp : 0 < f := div_pos hc.inL (mpch_pos hc.h)
  have hgp : 0 < g := div_pos hc.inM (msunh10_pos hc.h)
  obtain ⟨parts', hsp, hplen, hpk'⟩ := selected f g xyz masses box objs minPtcs hmin hs o
    (by rw [← ho]) (by rw [← ho]) (by rw [← ho]) (by rw [← ho]) sel hsel
  have hocen : o.center = center := by rw [← ho]
  have hobox : o.box = box * f := by rw [← ho]
  cases hrun with
  | rejected e h => rw [hsp] at h; cases h
  | diverges parts h hcd =>
    obtain ⟨ps, hps, hnone⟩ := mapM_none _ _ hcd
    rw [hsp] at h
    obtain rfl := Except.ok.inj h
    obtain ⟨k, hk, hkp⟩ := List.getElem_of_mem hps
    have hk' : k < sel.length := by rw [← hplen]; exact hk
    have hzr := hsel.2.2 _ (List.getElem_mem hk')
    have hob : (resolved minPtcs objs)[sel[k].toNat]? = some ((resolved minPtcs objs)[sel[k].toNat]'(by omega)) := List.getElem?_eq_getElem (by omega)
    obtain ⟨h1, h2⟩ := hpk' k _ _ (List.getElem?_eq_getElem hk') hob
    rw [List.getElem?_eq_getElem hk, hkp] at h1
    obtain rfl := Option.some.inj h1
    refine ⟨_, _, List.getElem_mem hk', hob, fun hnc => ?_⟩
    rw [hocen, hobox, centreOf_plain choose hch limit hs.box_pos hfp hgp center _ h2 (fun p hp => hs.masses_pos _ (mem_particlesOf hp).2) hnc] at hnone
    simpa using hnone

theorem density_rows (c c' : Cfg ℝ) (hc : c.Pos) (hc' : c'.Pos) (hh : c'.h = c.h)
    (xyz : List (Vec ℝ)) (masses : List ℝ) (box : ℝ) (objs : List (List Nat × ℝ)) (minPtcs : Int)
    (hmin : 1 ≤ minPtcs) (center : Center) (hs : Sensible xyz masses box objs)
    (hr200 : ∀ o ∈ objs, 0 < o.2)
    (choose : Nat → List Nat) (hch : ∀ n, 0 < n → ∃ j ∈ choose n, j < n) (limit : Nat) (o : Obj)
    (ho : construct c ⟨xyz, masses, .nested (objs.map Prod.fst), .array (objs.map Prod.snd), box,
      minPtcs, center⟩ = .ok o)
    (radii : List ℝ) (hradii : radii ≠ []) (hinc : radii.Pairwise (· < ·))
    (hpos : ∀ r ∈ radii, 1e-8 < r)
    (sel : List Int) (hsel : GoodSelection sel (resolved minPtcs objs).length)
    (out : Except Err (List (List ℝ))) (hrun : EstDensProfs c' choose limit o radii sel out) :
    (out = .error .recursion ∧ ∃ (z : Int) (obj : List Nat × ℝ), z ∈ sel ∧ (resolved minPtcs objs)[z.toNat]? = some obj ∧
      (NotCrossing box (particlesOf xyz masses obj.1) →
        plainCentre limit (1000 / (c.inL / mpch c.h)) center (particlesOf xyz masses obj.1) = none)) ∨
    ∃ res, out = .ok res ∧ res.length = sel.length ∧
      ∀ (k : Nat) (z : Int) (obj : List Nat × ℝ), sel[k]? = some z →
        (resolved minPtcs objs)[z.toNat]? = some obj →
        NotCrossing box (particlesOf xyz masses obj.1) →
        ∃ row : List ℝ, res[k]? = some row ∧ row.length = radii.length ∧
        ∃ v, plainCentre limit (1000 / (c.inL / mpch c.h)) center (particlesOf xyz masses obj.1) = some v ∧
          ∀ (b : Nat) (dens : ℝ), row[b]? = some dens →
            dens * (c'.outM / c'.outL ^ 3) * shellVolume (lowerEdge radii b * obj.2 * c.inL)
              (upperEdge radii b * obj.2 * c.inL) =
            massBetween v (particlesOf xyz masses obj.1)
              (lowerEdge radii b * obj.2) (upperEdge radii b * obj.2) * c.inM := by
  have hl := mpch_pos hc.h
  have hms := msunh10_pos hc.h
  have hfp : 0 < c.inL / mpch c.h := div_pos hc.inL hl
  have hgp : 0 < c.inM / msunh10 c.h := div_pos hc.inM hms
  obtain ⟨edges', he', helen, hegood, -, -⟩ := C30_edges radii hinc hpos hradii
  rcases est_rows c c' hc xyz masses box objs minPtcs hmin center hs choose limit o ho radii edges' he'
    sel hsel out hrun with h | ⟨res, rfl, hlen, hrows⟩
  · exact .inl ⟨h.1, by rw [h.1] at hrun; exact est_diverges c c' hc xyz masses box objs minPtcs hmin center hs choose hch limit o ho radii sel hsel hrun⟩
  · right
    refine ⟨res, rfl, hlen, ?_⟩
    intro k z obj hk hobj hnc
    obtain ⟨hpne, row, v, hrow1, hcv, hrow2⟩ := hrows k z obj hk hobj
    set f := c.inL / mpch c.h with hf
    set g := c.inM / msunh10 c.h with hg
    have hLpos : 0 < box * f := mul_pos hs.box_pos hfp
    have hchk : ∃ j ∈ choose ((particlesOf xyz masses obj.1).map (scale f g)).length,
        j < ((particlesOf xyz masses obj.1).map (scale f g)).length := by
      refine hch _ ?_
      simpa [List.length_pos_iff] using hpne
    rw [centreOf_plain choose hch limit hs.box_pos hfp hgp center _ hpne (fun p hp => hs.masses_pos _ (mem_particlesOf hp).2) hnc] at hcv
    obtain ⟨w, hw, rfl⟩ := Option.map_eq_some_iff.1 hcv
    have hnc' := notCrossing_scale box f g hfp _ hnc
    have halone : aloneProfile (box * f) edges' ⟨(particlesOf xyz masses obj.1).map (scale f g),
        fun a => w a * f, obj.2 * f⟩ = (bins edges').map fun e =>
        massBetween (fun a => w a * f)
          ((particlesOf xyz masses obj.1).map (scale f g)) (e.1 * (obj.2 * f)) (e.2 * (obj.2 * f)) /
          shellVolume (e.1 * (obj.2 * f)) (e.2 * (obj.2 * f)) := by
      unfold aloneProfile
      simp only
      rw [cy_of_notCrossing (box * f) hLpos _ hnc']
      apply C27_profile _ _ _ _ _ hegood.1 _ (by simp)
      have hob : obj ∈ objs := List.mem_of_mem_filter (List.mem_of_getElem? hobj)
      exact mul_nonneg (hr200 obj hob).le hfp.le
    rw [halone] at hrow2
    have hestOut := C15_reported_density c' hc' ((bins edges').map fun e =>
        massBetween (fun a => w a * f)
          ((particlesOf xyz masses obj.1).map (scale f g)) (e.1 * (obj.2 * f)) (e.2 * (obj.2 * f)) /
          shellVolume (e.1 * (obj.2 * f)) (e.2 * (obj.2 * f)))
    obtain ⟨out', ho1, ho2⟩ := hestOut
    rw [ho1] at hrow2
    obtain rfl : out' = row := Except.ok.inj hrow2
    obtain ⟨hb1, hb2⟩ := bins_sphEdges radii edges' he'
    refine ⟨out', hrow1, ?_, w, hw, ?_⟩
    · rw [← ho2.length_eq]; simp [hb1]
    · intro b dens hdens
      have hblt : b < radii.length := by
        have := (List.getElem?_eq_some_iff.1 hdens).1
        rw [← ho2.length_eq] at this
        simpa [hb1] using this
      have hbin := hb2 b hblt
      have hfa : dens * (c'.outM / c'.outL ^ 3) =
          massBetween (fun a => w a * f)
          ((particlesOf xyz masses obj.1).map (scale f g)) (lowerEdge radii b * (obj.2 * f))
            (upperEdge radii b * (obj.2 * f)) /
          shellVolume (lowerEdge radii b * (obj.2 * f)) (upperEdge radii b * (obj.2 * f)) *
          (msunh10 c'.h / mpch c'.h ^ 3) := by
        have hlt : b < ((bins edges').map fun e =>
          massBetween (fun a => w a * f)
            ((particlesOf xyz masses obj.1).map (scale f g)) (e.1 * (obj.2 * f)) (e.2 * (obj.2 * f)) /
            shellVolume (e.1 * (obj.2 * f)) (e.2 * (obj.2 * f))).length := by simp [hb1, hblt]
        obtain ⟨hlt2, rfl⟩ := List.getElem?_eq_some_iff.1 hdens
        have h4 := (List.forall₂_iff_get.1 ho2).2 b hlt hlt2
        obtain ⟨hlt3, hget⟩ := List.getElem?_eq_some_iff.1 hbin
        simpa [hget] using h4
      have hob : obj ∈ objs := List.mem_of_mem_filter (List.mem_of_getElem? hobj)
      have hR := hr200 obj hob
      have hedge : lowerEdge radii b < upperEdge radii b ∧ 0 ≤ lowerEdge radii b := by
        have hmem := List.mem_of_getElem? hbin
        unfold bins at hmem hbin
        refine ⟨?_, hegood.1 _ (List.of_mem_zip hmem).1⟩
        obtain ⟨h1, h2⟩ := List.getElem?_zip_eq_some.1 hbin
        rw [List.getElem?_tail] at h2
        exact (List.pairwise_iff_getElem.1 hegood.2) b (b + 1)
          (List.getElem?_eq_some_iff.1 h1).1 (List.getElem?_eq_some_iff.1 h2).1 (by omega) |> fun h => by
          rwa [(List.getElem?_eq_some_iff.1 h1).2, (List.getElem?_eq_some_iff.1 h2).2] at h
      rw [hfa, ← mul_assoc, ← mul_assoc, massBetween_scale f g hfp, hh]
      set lo := lowerEdge radii b
      set hi := upperEdge radii b
      have hcube : lo ^ 3 < hi ^ 3 := pow_lt_pow_left₀ hedge.1 hedge.2 (by norm_num)
      have hv1 : shellVolume (lo * obj.2 * f) (hi * obj.2 * f) =
          4 / 3 * Real.pi * ((hi ^ 3 - lo ^ 3) * obj.2 ^ 3 * f ^ 3) := by
        unfold shellVolume; ring
      have hv2 : shellVolume (lo * obj.2 * c.inL) (hi * obj.2 * c.inL) =
          4 / 3 * Real.pi * ((hi ^ 3 - lo ^ 3) * obj.2 ^ 3 * c.inL ^ 3) := by
        unfold shellVolume; ring
      rw [hv1, hv2]
      have h1 : hi ^ 3 - lo ^ 3 ≠ 0 := by linarith
      have h2 := hR.ne'
      have h3 := hc.inL.ne'
      have h4 := hl.ne'
      have h5 := hms.ne'
      have h6 := Real.pi_ne_zero
      rw [hf, hg]
      field_simp

theorem kernel_rows (c c' : Cfg ℝ) (hc : c.Pos) (hc' : c'.Pos) (hh : c'.h = c.h)
    (xyz : List (Vec ℝ)) (masses : List ℝ) (box : ℝ) (objs : List (List Nat × ℝ)) (minPtcs : Int)
    (hmin : 1 ≤ minPtcs) (center : Center) (hs : Sensible xyz masses box objs)
    (hr200 : ∀ o ∈ objs, 0 < o.2)
    (choose : Nat → List Nat) (hch : ∀ n, 0 < n → ∃ j ∈ choose n, j < n) (limit : Nat) (o : Obj)
    (ho : construct c ⟨xyz, masses, .nested (objs.map Prod.fst), .array (objs.map Prod.snd), box,
      minPtcs, center⟩ = .ok o)
    (radii : List ℝ) (hradii : radii ≠ []) (hpos : ∀ r ∈ radii, 0 < r)
    (sel : List Int) (hsel : GoodSelection sel (resolved minPtcs objs).length)
    (out : Except KernelErr (List (List ℝ)))
    (hrun : EstDensProfsKernel c' choose limit o radii sel out) :
    (out = .error (.base .recursion) ∧ ∃ (z : Int) (obj : List Nat × ℝ), z ∈ sel ∧ (resolved minPtcs objs)[z.toNat]? = some obj ∧
      (NotCrossing box (particlesOf xyz masses obj.1) →
        plainCentre limit (1000 / (c.inL / mpch c.h)) center (particlesOf xyz masses obj.1) = none)) ∨
    (out = .error .zeroDivision ∧ ∃ z ∈ sel, ∃ obj, (resolved minPtcs objs)[z.toNat]? = some obj ∧
      (NotCrossing box (particlesOf xyz masses obj.1) →
        ∃ v, plainCentre limit (1000 / (c.inL / mpch c.h)) center (particlesOf xyz masses obj.1) = some v ∧
          ∃ p ∈ particlesOf xyz masses obj.1, p.pos = v)) ∨
    ∃ res, out = .ok res ∧ res.length = sel.length ∧
      ∀ (k : Nat) (z : Int) (obj : List Nat × ℝ), sel[k]? = some z →
        (resolved minPtcs objs)[z.toNat]? = some obj →
        NotCrossing box (particlesOf xyz masses obj.1) →
        ∃ row : List ℝ, res[k]? = some row ∧ row.length = radii.length ∧
        ∃ v, plainCentre limit (1000 / (c.inL / mpch c.h)) center (particlesOf xyz masses obj.1) = some v ∧
          (∀ p ∈ particlesOf xyz masses obj.1, p.pos ≠ v) ∧
          (∀ (b : Nat) (dens r : ℝ), row[b]? = some dens → radii[b]? = some r →
            dens * (c'.outM / c'.outL ^ 3) =
              smoothedDensity obj.2 v (particlesOf xyz masses obj.1) (r * obj.2) *
                (c.inM / c.inL ^ 3)) := by
  have ho := Except.ok.inj ((construct_eq c xyz masses box objs minPtcs center hs.lengths
    hs.objects).symm.trans ho)
  have hl := mpch_pos hc.h
  have hms := msunh10_pos hc.h
  have hfp : 0 < c.inL / mpch c.h := div_pos hc.inL hl
  have hgp : 0 < c.inM / msunh10 c.h := div_pos hc.inM hms
  have hobox : o.box = box * (c.inL / mpch c.h) := by rw [← ho]
  set f := c.inL / mpch c.h with hf
  set g := c.inM / msunh10 c.h with hg
  have hocen : o.center = center := by rw [← ho]
  have hor : o.r200 = (resolved minPtcs objs).map fun o => o.2 * f := by rw [← ho]
  have hLpos : 0 < box * f := mul_pos hs.box_pos hfp
  obtain ⟨parts', hsp, hplen, hpk'⟩ := selected f g xyz masses box objs minPtcs hmin hs o
    (by rw [← ho]) (by rw [← ho]) (by rw [← ho]) (by rw [← ho]) sel hsel
  -- objects of the loop
  have hobj : ∀ r200, fancy o.r200 (sel.map Int.toNat) = some r200 →
      ∀ (k : Nat) (z : Int) (obj : List Nat × ℝ), sel[k]? = some z →
        (resolved minPtcs objs)[z.toNat]? = some obj →
      (parts'.zip r200)[k]? = some ((particlesOf xyz masses obj.1).map (scale f g), obj.2 * f) := by
    intro r200 hr k z obj hk hob
    rw [List.getElem?_zip_eq_some]
    refine ⟨(hpk' k z obj hk hob).1, ?_⟩
    obtain ⟨r, h1, h2⟩ := (mapM_some_get _ _ _ hr).2 k z.toNat (by
      rw [List.getElem?_map, hk]; rfl)
    rw [hor, List.getElem?_map, hob] at h2
    rw [h1, ← Option.some.inj h2]
  have hmem : ∀ r200, fancy o.r200 (sel.map Int.toNat) = some r200 →
      ∀ d ∈ parts'.zip r200, ∃ z ∈ sel, ∃ obj, (resolved minPtcs objs)[z.toNat]? = some obj ∧
        d = ((particlesOf xyz masses obj.1).map (scale f g), obj.2 * f) ∧
        particlesOf xyz masses obj.1 ≠ [] := by
    intro r200 hr d hd
    obtain ⟨k, hk⟩ := List.mem_iff_getElem?.1 hd
    have hklt : k < sel.length := by
      rw [← hplen]
      exact (List.getElem?_eq_some_iff.1 (List.getElem?_zip_eq_some.1 hk).1).1
    obtain ⟨z, hzk⟩ : ∃ z, sel[k]? = some z := ⟨_, List.getElem?_eq_getElem hklt⟩
    have hz := hsel.2.2 z (List.mem_of_getElem? hzk)
    have hzlt : z.toNat < (resolved minPtcs objs).length := by omega
    obtain ⟨obj, hob⟩ : ∃ obj, (resolved minPtcs objs)[z.toNat]? = some obj :=
      ⟨_, List.getElem?_eq_getElem hzlt⟩
    refine ⟨z, List.mem_of_getElem? hzk, obj, hob, ?_, (hpk' k z obj hzk hob).2⟩
    rw [hobj r200 hr k z obj hzk hob] at hk
    exact (Option.some.inj hk).symm
  -- the centre of an object not crossing a face
  have hcentre : ∀ obj : List Nat × ℝ, particlesOf xyz masses obj.1 ≠ [] →
      NotCrossing box (particlesOf xyz masses obj.1) → ∀ v,
      centreOf choose limit (box * f) center ((particlesOf xyz masses obj.1).map (scale f g)) = some v →
      ∃ w, plainCentre limit (1000 / f) center (particlesOf xyz masses obj.1) = some w ∧ (v = fun a => w a * f) ∧
        massDistances (box * f) v ((particlesOf xyz masses obj.1).map (scale f g)) =
          ((particlesOf xyz masses obj.1).map (scale f g)).map fun p => (p.mass, radius v p) := by
    intro obj hpne hnc v hcv
    rw [centreOf_plain choose hch limit hs.box_pos hfp hgp center _ hpne (fun p hp => hs.masses_pos _ (mem_particlesOf hp).2) hnc] at hcv
    obtain ⟨w, hw, rfl⟩ := Option.map_eq_some_iff.1 hcv
    refine ⟨w, hw, rfl, ?_⟩
    unfold massDistances
    rw [cy_of_notCrossing (box * f) hLpos _ (notCrossing_scale box f g hfp _ hnc)]
  have hradius : ∀ (v : Vec ℝ) (p : Particle ℝ), radius v p = 0 → p.pos = v := by
    intro v p h0
    have hz := (Real.sqrt_eq_zero (by positivity)).1 h0
    funext a
    have h1 : (v 0 - p.pos 0) ^ 2 = 0 := by nlinarith [sq_nonneg (v 0 - p.pos 0), sq_nonneg (v 1 - p.pos 1), sq_nonneg (v 2 - p.pos 2)]
    have h2 : (v 1 - p.pos 1) ^ 2 = 0 := by nlinarith [sq_nonneg (v 0 - p.pos 0), sq_nonneg (v 1 - p.pos 1), sq_nonneg (v 2 - p.pos 2)]
    have h3 : (v 2 - p.pos 2) ^ 2 = 0 := by nlinarith [sq_nonneg (v 0 - p.pos 0), sq_nonneg (v 1 - p.pos 1), sq_nonneg (v 2 - p.pos 2)]
    have h1 := pow_eq_zero_iff (two_ne_zero) |>.1 h1
    have h2 := pow_eq_zero_iff (two_ne_zero) |>.1 h2
    have h3 := pow_eq_zero_iff (two_ne_zero) |>.1 h3
    fin_cases a
    · show p.pos 0 = v 0; linarith
    · show p.pos 1 = v 1; linarith
    · show p.pos 2 = v 2; linarith
  have hR : ∀ (i : Nat) (obj : List Nat × ℝ), (resolved minPtcs objs)[i]? = some obj → 0 < obj.2 :=
    fun i obj h => hr200 obj (List.mem_of_mem_filter (List.mem_of_getElem? h))
  cases hrun with
  | rejected e h => rw [hsp] at h; cases h
  | raises parts h r200 hr e hloop =>
    rw [hsp] at h
    obtain rfl := Except.ok.inj h
    rw [hobox, hocen] at hloop
    rcases kernelLoop_spec _ _ _ _ _ _ _ hloop with ⟨he, d, hd, hcd⟩ | ⟨he, d, hd, v, hcv, md, hmd, hz⟩ |
      ⟨rows, he, -⟩
    · left
      refine ⟨he, ?_⟩
      obtain ⟨z, hzs, obj, hob, rfl, hpne⟩ := hmem r200 hr d hd
      refine ⟨z, obj, hzs, hob, fun hnc => ?_⟩
      rw [centreOf_plain choose hch limit hs.box_pos hfp hgp center _ hpne (fun p hp => hs.masses_pos _ (mem_particlesOf hp).2) hnc] at hcd
      simpa using hcd
    · right; left
      refine ⟨he, ?_⟩
      obtain ⟨z, hzs, obj, hob, rfl, hpne⟩ := hmem r200 hr d hd
      refine ⟨z, hzs, obj, hob, fun hnc => ?_⟩
      obtain ⟨w, h1, hv, hmd'⟩ := hcentre obj hpne hnc v hcv
      refine ⟨w, h1, ?_⟩
      rw [hmd'] at hmd
      obtain ⟨q, hq, rfl⟩ := List.mem_map.1 hmd
      obtain ⟨p, hp, rfl⟩ := List.mem_map.1 hq
      simp only at hz
      rw [hv, radius_scale f g hfp, kernelWidth_scale f _ _ hfp (hR _ _ hob)] at hz
      have hz0 : kernelWidth obj.2 (radius w p) = 0 := by
        rcases mul_eq_zero.1 hz with h | h
        · exact h
        · exact absurd h hfp.ne'
      have hz0 := (kernelWidth_zero _ _ (hR _ _ hob) (Real.sqrt_nonneg _)).1 hz0
      exact ⟨p, hp, hradius _ p hz0⟩
    · cases he
  | finished parts h r200 hr rows hloop res hout =>
    rw [hsp] at h
    obtain rfl := Except.ok.inj h
    rw [hobox, hocen] at hloop
    right; right
    rcases kernelLoop_spec _ _ _ _ _ _ _ hloop with ⟨he, -⟩ | ⟨he, -⟩ | ⟨rows', he, hlen, hrows⟩
    · cases he
    · cases he
    obtain rfl := Except.ok.inj he
    have hrlen : r200.length = sel.length := by
      have := (mapM_some_get _ _ _ hr).1; simpa using this
    refine ⟨res, rfl, ?_, ?_⟩
    · rw [(mapM_some_get _ _ _ hout).1, hlen]; simp [hplen, hrlen]
    intro k z obj hk hob hnc
    obtain ⟨v, hcv, hrow, hne⟩ := hrows k _ (hobj r200 hr k z obj hk hob)
    obtain ⟨w, h1, hv, hmd⟩ := hcentre obj (hpk' k z obj hk hob).2 hnc v hcv
    obtain ⟨row, hrow1, hrow2⟩ := (mapM_some_get _ _ _ hout).2 k _ hrow
    have hRk := hR _ _ hob
    have hdist : ∀ p ∈ particlesOf xyz masses obj.1, 0 < radius w p := by
      intro p hp
      refine lt_of_le_of_ne (Real.sqrt_nonneg _) fun h0 => ?_
      have := hne hradii (p.mass * g, radius v (scale f g p)) (by
        simp only [hmd]
        exact List.mem_map.2 ⟨_, List.mem_map_of_mem hp, rfl⟩)
      simp only [hv] at this
      rw [radius_scale f g hfp, ← h0, zero_mul] at this
      exact this (kernelWidth_at_zero _)
    obtain ⟨out', ho1, ho2⟩ := C15_reported_density c' hc'
      (radii.map fun r => densKernel (obj.2 * f) (massDistances (box * f) v
        ((particlesOf xyz masses obj.1).map (scale f g))) (r * (obj.2 * f)))
    simp only at hrow2
    rw [ho1] at hrow2
    obtain rfl : out' = row := Option.some.inj hrow2
    refine ⟨out', hrow1, by rw [← ho2.length_eq]; simp, w, h1, ?_, ?_⟩
    · intro p hp h0
      have := hdist p hp
      unfold radius at this
      rw [h0] at this
      simp at this
    intro b dens r hb hrb
    obtain ⟨hblt, rfl⟩ := List.getElem?_eq_some_iff.1 hb
    obtain ⟨hrlt, rfl⟩ := List.getElem?_eq_some_iff.1 hrb
    have h4 := (List.forall₂_iff_get.1 ho2).2 b (by simpa using hrlt) hblt
    simp only [List.get_eq_getElem, List.getElem_map] at h4
    rw [h4, hmd, hv, ← mul_assoc, densKernel_scale f g _ hfp hRk,
      densKernel_smoothed _ hRk _ _ hdist _ (mul_pos (hpos _ (List.getElem_mem hrlt)) hRk), hh]
    have e3 := hc.inL.ne'
    have e4 := hl.ne'
    have e5 := hms.ne'
    rw [hf, hg]
    field_simp

/-! ## Centres -/

section

variable {ι : Type} {F : Filter ι} {xyzs : ι → List (Vec ℝ)} {ms : ι → List ℝ} {objss : ι → List (List Nat × ℝ)} {xyz : List (Vec ℝ)} {masses : List ℝ}
  {objs : List (List Nat × ℝ)}

/-- Centres of particles which approach given ones. -/
theorem centre_near {parts : ι → List (Particle ℝ)} {ps : List (Particle ℝ)} {r : ι → ℝ} {R : ℝ}
    (hnear : Binning.Approach F parts (fun i => weightedMean (parts i)) r ps (weightedMean ps) R) (hm : ∀ p ∈ ps, 0 < p.mass) (hne : ps ≠ [])
    {center : Center} {rad : ℝ} (hoff : center = .mode → OffSpheres ps rad) {limit : Nat} {v : Vec ℝ} (hv : plainCentre limit rad center ps = some v) :
    ∃ vs : ι → Vec ℝ, Binning.Approach F parts vs r ps v R ∧ ∀ᶠ i in F, plainCentre limit rad center (parts i) = some (vs i) := by
  cases center with
  | mode =>
    obtain ⟨vs, h1, h2⟩ := C185_mode hnear.number hnear.pos hnear.mass hm hne tendsto_const_nhds (hoff rfl) hv
    exact ⟨vs, ⟨hnear.number, hnear.pos, hnear.mass, h1, hnear.r200⟩, h2⟩
  | com =>
    obtain rfl := Option.some.inj hv
    exact ⟨_, hnear, Filter.Eventually.of_forall fun i => rfl⟩

theorem selected_ne {xyz : List (Vec ℝ)} {masses : List ℝ} {box : ℝ} {objs : List (List Nat × ℝ)} (hs : Sensible xyz masses box objs) {minPtcs : Int}
    (hmin : 1 ≤ minPtcs) {j : Nat} {obj : List Nat × ℝ} (hob : (resolved minPtcs objs)[j]? = some obj) : particlesOf xyz masses obj.1 ≠ [] := by
  have hsize := (List.mem_filter.1 (List.mem_of_getElem? hob)).2
  have hsize : minPtcs ≤ (obj.1.length : Int) := by simpa using hsize
  rw [particlesOf_eq hs.lengths (hs.exist obj (List.mem_of_mem_filter (List.mem_of_getElem? hob)))]
  intro hnil
  rw [List.map_eq_nil_iff] at hnil
  rw [hnil] at hsize
  simp at hsize
  omega

/-- C184 (shells, either definition of the centre). As `C184_density`, for CENTER = 'com' or 'mode'; for 'mode' no particle is exactly on a sphere
of the search, and edges are those around the mode. -/
theorem C184_density_any (c c' : Cfg ℝ) (hc : c.Pos) (hc' : c'.Pos) (hh : c'.h = c.h)
    (xyz : List (Vec ℝ)) (masses : List ℝ) (box : ℝ) (objs : List (List Nat × ℝ)) (minPtcs : Int) (hmin : 1 ≤ minPtcs) (center : Center)
    (hs : Sensible xyz masses box objs) (hr200 : ∀ o ∈ objs, 0 < o.2)
    (xyzs : ι → List (Vec ℝ)) (ms : ι → List ℝ) (objss : ι → List (List Nat × ℝ))
    (hss : ∀ i, Sensible (xyzs i) (ms i) box (objss i)) (hr200s : ∀ i, ∀ o ∈ objss i, 0 < o.2)
    (happ : DataApproach F xyzs ms objss xyz masses objs)
    (choose : Nat → List Nat) (hch : ∀ n, 0 < n → ∃ j ∈ choose n, j < n) (limit : Nat)
    (radii : List ℝ) (hradii : radii ≠ []) (hinc : radii.Pairwise (· < ·)) (hpos : ∀ r ∈ radii, 1e-8 < r)
    (sel : List Int) (hsel : GoodSelection sel (resolved minPtcs objs).length)
    (hobj : ∀ (z : Int) (obj : List Nat × ℝ), z ∈ sel → (resolved minPtcs objs)[z.toNat]? = some obj →
      (∀ p ∈ particlesOf xyz masses obj.1, ∀ q ∈ particlesOf xyz masses obj.1, ∀ a, |p.pos a - q.pos a| < box / 2) ∧
      (center = .mode → OffSpheres (particlesOf xyz masses obj.1) (1000 / (c.inL / mpch c.h))) ∧
      ∀ v, plainCentre limit (1000 / (c.inL / mpch c.h)) center (particlesOf xyz masses obj.1) = some v →
        ∀ p ∈ particlesOf xyz masses obj.1, ∀ b < radii.length, radius v p ≠ lowerEdge radii b * obj.2 ∧ radius v p ≠ upperEdge radii b * obj.2)
    (o : Obj) (ho : construct c ⟨xyz, masses, .nested (objs.map Prod.fst), .array (objs.map Prod.snd), box, minPtcs, center⟩ = .ok o)
    (res : List (List ℝ)) (hrun : EstDensProfs c' choose limit o radii sel (.ok res)) (ε : ℝ) (hε : 0 < ε) :
    ∀ᶠ i in F, ∀ o', construct c ⟨xyzs i, ms i, .nested ((objss i).map Prod.fst), .array ((objss i).map Prod.snd), box, minPtcs, center⟩ = .ok o' →
      ∀ out, EstDensProfs c' choose limit o' radii sel out → ∃ res', out = .ok res' ∧ CloseTables ε res res' := by
  rcases density_rows c c' hc hc' hh xyz masses box objs minPtcs hmin center hs hr200 choose hch limit o ho radii hradii hinc hpos sel hsel
    _ hrun with ⟨h, -⟩ | ⟨res₀, h, hlen, hrows⟩
  · cases h
  obtain rfl : res = res₀ := by cases h; rfl
  set val : ℝ → Vec ℝ → List (Particle ℝ) → Nat → ℝ := fun r v ps b =>
    massBetween v ps (lowerEdge radii b * r) (upperEdge radii b * r) * c.inM /
      ((c'.outM / c'.outL ^ 3) * shellVolume (lowerEdge radii b * r * c.inL) (upperEdge radii b * r * c.inL)) with hval
  have hunit : 0 < c'.outM / c'.outL ^ 3 := div_pos hc'.outM (pow_pos hc'.outL 3)
  have hdens : ∀ (r : ℝ) (v : Vec ℝ) (ps : List (Particle ℝ)) (b : Nat) (x : ℝ), 0 < r → b < radii.length →
      x * (c'.outM / c'.outL ^ 3) * shellVolume (lowerEdge radii b * r * c.inL) (upperEdge radii b * r * c.inL) =
        massBetween v ps (lowerEdge radii b * r) (upperEdge radii b * r) * c.inM → x = val r v ps b := by
    intro r v ps b x hr hb hx
    obtain ⟨e1, e2⟩ := edges_increase radii hradii hinc hpos hb
    have := volume_pos e1 e2 hr hc.inL
    rw [hval]
    beta_reduce
    rw [eq_div_iff (by positivity), ← hx]
    ring
  have hentry : ∀ k < sel.length, ∀ᶠ i in F, ∀ (z : Int) (obj' : List Nat × ℝ), sel[k]? = some z → (resolved minPtcs (objss i))[z.toNat]? = some obj' →
      NotCrossing box (particlesOf (xyzs i) (ms i) obj'.1) ∧
      ∃ v', plainCentre limit (1000 / (c.inL / mpch c.h)) center (particlesOf (xyzs i) (ms i) obj'.1) = some v' ∧
      ∀ b < radii.length, ∀ row x, res[k]? = some row → row[b]? = some x →
        |val obj'.2 v' (particlesOf (xyzs i) (ms i) obj'.1) b - x| ≤ ε := by
    intro k hk
    have hz : sel[k]? = some sel[k] := List.getElem?_eq_getElem hk
    have hzr := hsel.2.2 _ (List.getElem_mem hk)
    have hob : (resolved minPtcs objs)[sel[k].toNat]? = some ((resolved minPtcs objs)[sel[k].toNat]'(by omega)) := List.getElem?_eq_getElem (by omega)
    generalize hobjdef : (resolved minPtcs objs)[sel[k].toNat]'(by omega) = obj at hob
    have hmem : obj ∈ objs := List.mem_of_mem_filter (List.mem_of_getElem? hob)
    obtain ⟨o1, omode, o2⟩ := hobj _ obj (List.getElem_mem hk) hob
    obtain ⟨r, hri, hnear₀, hcross⟩ := object_near happ hs hss hmin hob o1
    obtain ⟨row, hrow, hrl, v, hv, hans⟩ := hrows k _ obj hz hob fun p hp q hq a => (o1 p hp q hq a).le
    obtain ⟨vs, hnear, hvs⟩ := centre_near hnear₀ (fun p hp => hs.masses_pos _ (mem_particlesOf hp).2) (selected_ne hs hmin hob) omode hv
    replace o2 := o2 v hv
    have hR := hr200 obj hmem
    have hall : ∀ᶠ i in F, ∀ b ∈ Finset.range radii.length, ∀ x, row[b]? = some x →
        |val (r i) (vs i) (particlesOf (xyzs i) (ms i) obj.1) b - x| ≤ ε := by
      refine (Filter.eventually_all_finset _).2 fun b hb => ?_
      rw [Finset.mem_range] at hb
      have hbrow : row[b]? = some (row[b]'(by omega)) := List.getElem?_eq_getElem (by omega)
      obtain ⟨e1, e2⟩ := edges_increase radii hradii hinc hpos hb
      have hvol := volume_pos e1 e2 hR hc.inL
      have hlim : Tendsto (fun i => val (r i) (vs i) (particlesOf (xyzs i) (ms i) obj.1) b) F
          (𝓝 (val obj.2 v (particlesOf xyz masses obj.1) b)) := by
        have l1 := hnear.r200.const_mul (lowerEdge radii b)
        have l2 := hnear.r200.const_mul (upperEdge radii b)
        refine Tendsto.div ((mass_near hnear l1 l2 fun p hp => o2 p hp b hb).mul_const _) (Tendsto.const_mul _ ?_) (by positivity)
        unfold shellVolume
        exact (((l2.mul_const _).pow 3).sub ((l1.mul_const _).pow 3)).const_mul _
      rw [← hdens obj.2 _ _ b _ hR hb (hans b _ hbrow)] at hlim
      have := hlim.sub_const (row[b]'(by omega))
      rw [sub_self] at this
      have := this.abs
      rw [abs_zero] at this
      filter_upwards [this.eventually_lt_const hε] with i hi x hx
      rw [hbrow] at hx
      obtain rfl := Option.some.inj hx
      exact hi.le
    filter_upwards [hcross, hvs, hall] with i h1 h0 h2 z obj' hz' hobj'
    rw [hz] at hz'
    obtain rfl := Option.some.inj hz'
    rw [hri i] at hobj'
    obtain rfl := Option.some.inj hobj'
    refine ⟨h1, vs i, h0, fun b hb row' x hrow' hx => ?_⟩
    rw [hrow] at hrow'
    obtain rfl := Option.some.inj hrow'
    exact h2 b (Finset.mem_range.2 hb) x hx
  have hentries : ∀ᶠ i in F, ∀ k ∈ Finset.range sel.length, ∀ (z : Int) (obj' : List Nat × ℝ), sel[k]? = some z →
      (resolved minPtcs (objss i))[z.toNat]? = some obj' →
      NotCrossing box (particlesOf (xyzs i) (ms i) obj'.1) ∧
      ∃ v', plainCentre limit (1000 / (c.inL / mpch c.h)) center (particlesOf (xyzs i) (ms i) obj'.1) = some v' ∧
      ∀ b < radii.length, ∀ row x, res[k]? = some row → row[b]? = some x →
        |val obj'.2 v' (particlesOf (xyzs i) (ms i) obj'.1) b - x| ≤ ε :=
    (Filter.eventually_all_finset _).2 fun k hk => hentry k (Finset.mem_range.1 hk)
  filter_upwards [hentries] with i hi o' ho' out hout
  have hlr := resolved_length minPtcs (happ.members i)
  rcases density_rows c c' hc hc' hh (xyzs i) (ms i) box (objss i) minPtcs hmin center (hss i) (hr200s i) choose hch limit o' ho' radii hradii hinc hpos
    sel (by rw [hlr]; exact hsel) out hout with ⟨-, z, obj, hz, hob, hnone⟩ | ⟨res', rfl, hlen', hrows'⟩
  · exfalso
    obtain ⟨k, hk, rfl⟩ := List.getElem_of_mem hz
    obtain ⟨h1, v', hv', -⟩ := hi k (Finset.mem_range.2 hk) _ obj (List.getElem?_eq_getElem hk) hob
    rw [hnone h1] at hv'
    cases hv'
  · refine ⟨res', rfl, by rw [hlen', hlen], fun k row row' hrow hrow' => ?_⟩
    have hk : k < sel.length := by rw [← hlen]; exact (List.getElem?_eq_some_iff.1 hrow).1
    have hz : sel[k]? = some sel[k] := List.getElem?_eq_getElem hk
    have hzr := hsel.2.2 _ (List.getElem_mem hk)
    have hob : (resolved minPtcs objs)[sel[k].toNat]? = some ((resolved minPtcs objs)[sel[k].toNat]'(by omega)) := List.getElem?_eq_getElem (by omega)
    have hob' : (resolved minPtcs (objss i))[sel[k].toNat]? = some ((resolved minPtcs (objss i))[sel[k].toNat]'(by omega)) :=
      List.getElem?_eq_getElem (by omega)
    obtain ⟨row₀, g1, g2, -⟩ := hrows k _ _ hz hob fun p hp q hq a => ((hobj _ _ (List.getElem_mem hk) hob).1 p hp q hq a).le
    obtain rfl : row = row₀ := by rw [hrow] at g1; exact Option.some.inj g1
    obtain ⟨h1, v', hv', h2⟩ := hi k (Finset.mem_range.2 hk) _ _ hz hob'
    obtain ⟨row₁, f1, f2, w, hw, hans⟩ := hrows' k _ _ hz hob' h1
    obtain rfl : v' = w := by rw [hv'] at hw; exact Option.some.inj hw
    obtain rfl : row' = row₁ := by rw [hrow'] at f1; exact Option.some.inj f1
    refine ⟨by rw [f2, g2], fun b x x' hx hx' => ?_⟩
    have hb : b < radii.length := by rw [← g2]; exact (List.getElem?_eq_some_iff.1 hx).1
    rw [hdens _ _ _ b x' (hr200s i _ (List.mem_of_mem_filter (List.mem_of_getElem? hob'))) hb (hans b x' hx')]
    exact h2 b hb row x hrow hx

/-- C184 (kernels, either definition of the centre). As `C184_kernel`, for CENTER = 'com' or 'mode'; for 'mode' no particle is exactly on a sphere
of the search. -/
theorem C184_kernel_any (c c' : Cfg ℝ) (hc : c.Pos) (hc' : c'.Pos) (hh : c'.h = c.h)
    (xyz : List (Vec ℝ)) (masses : List ℝ) (box : ℝ) (objs : List (List Nat × ℝ)) (minPtcs : Int) (hmin : 1 ≤ minPtcs) (center : Center)
    (hs : Sensible xyz masses box objs) (hr200 : ∀ o ∈ objs, 0 < o.2)
    (xyzs : ι → List (Vec ℝ)) (ms : ι → List ℝ) (objss : ι → List (List Nat × ℝ))
    (hss : ∀ i, Sensible (xyzs i) (ms i) box (objss i)) (hr200s : ∀ i, ∀ o ∈ objss i, 0 < o.2)
    (happ : DataApproach F xyzs ms objss xyz masses objs)
    (choose : Nat → List Nat) (hch : ∀ n, 0 < n → ∃ j ∈ choose n, j < n) (limit : Nat)
    (radii : List ℝ) (hradii : radii ≠ []) (hpos : ∀ r ∈ radii, 0 < r)
    (sel : List Int) (hsel : GoodSelection sel (resolved minPtcs objs).length)
    (hobj : ∀ (z : Int) (obj : List Nat × ℝ), z ∈ sel → (resolved minPtcs objs)[z.toNat]? = some obj →
      (∀ p ∈ particlesOf xyz masses obj.1, ∀ q ∈ particlesOf xyz masses obj.1, ∀ a, |p.pos a - q.pos a| < box / 2) ∧
      (center = .mode → OffSpheres (particlesOf xyz masses obj.1) (1000 / (c.inL / mpch c.h))))
    (o : Obj) (ho : construct c ⟨xyz, masses, .nested (objs.map Prod.fst), .array (objs.map Prod.snd), box, minPtcs, center⟩ = .ok o)
    (res : List (List ℝ)) (hrun : EstDensProfsKernel c' choose limit o radii sel (.ok res)) (ε : ℝ) (hε : 0 < ε) :
    ∀ᶠ i in F, ∀ o', construct c ⟨xyzs i, ms i, .nested ((objss i).map Prod.fst), .array ((objss i).map Prod.snd), box, minPtcs, center⟩ = .ok o' →
      ∀ out, EstDensProfsKernel c' choose limit o' radii sel out → ∃ res', out = .ok res' ∧ CloseTables ε res res' := by
  rcases kernel_rows c c' hc hc' hh xyz masses box objs minPtcs hmin center hs hr200 choose hch limit o ho radii hradii hpos sel hsel
    _ hrun with ⟨h, -⟩ | ⟨h, -⟩ | ⟨res₀, h, hlen, hrows⟩
  · cases h
  · cases h
  obtain rfl : res = res₀ := by cases h; rfl
  have hunit : 0 < c'.outM / c'.outL ^ 3 := div_pos hc'.outM (pow_pos hc'.outL 3)
  set val : ℝ → Vec ℝ → List (Particle ℝ) → ℝ → ℝ := fun R v ps r =>
    smoothedDensity R v ps (r * R) * (c.inM / c.inL ^ 3) / (c'.outM / c'.outL ^ 3) with hval
  have hentry : ∀ k < sel.length, ∀ᶠ i in F, ∀ (z : Int) (obj' : List Nat × ℝ), sel[k]? = some z → (resolved minPtcs (objss i))[z.toNat]? = some obj' →
      NotCrossing box (particlesOf (xyzs i) (ms i) obj'.1) ∧
      ∃ v', plainCentre limit (1000 / (c.inL / mpch c.h)) center (particlesOf (xyzs i) (ms i) obj'.1) = some v' ∧
      (∀ p ∈ particlesOf (xyzs i) (ms i) obj'.1, p.pos ≠ v') ∧
      ∀ b < radii.length, ∀ row x r, res[k]? = some row → row[b]? = some x → radii[b]? = some r →
        |val obj'.2 v' (particlesOf (xyzs i) (ms i) obj'.1) r - x| ≤ ε := by
    intro k hk
    have hz : sel[k]? = some sel[k] := List.getElem?_eq_getElem hk
    have hzr := hsel.2.2 _ (List.getElem_mem hk)
    have hob : (resolved minPtcs objs)[sel[k].toNat]? = some ((resolved minPtcs objs)[sel[k].toNat]'(by omega)) := List.getElem?_eq_getElem (by omega)
    generalize hobjdef : (resolved minPtcs objs)[sel[k].toNat]'(by omega) = obj at hob
    have hmem : obj ∈ objs := List.mem_of_mem_filter (List.mem_of_getElem? hob)
    obtain ⟨o1, omode⟩ := hobj _ obj (List.getElem_mem hk) hob
    obtain ⟨R, hRi, hnear₀, hcross⟩ := object_near happ hs hss hmin hob o1
    obtain ⟨row, hrow, hrl, v, hv, hcen, hans⟩ := hrows k _ obj hz hob fun p hp q hq a => (o1 p hp q hq a).le
    obtain ⟨vs, hnear, hvs⟩ := centre_near hnear₀ (fun p hp => hs.masses_pos _ (mem_particlesOf hp).2) (selected_ne hs hmin hob) omode hv
    have hR := hr200 obj hmem
    have hoff : ∀ᶠ i in F, ∀ p ∈ particlesOf (xyzs i) (ms i) obj.1, p.pos ≠ vs i := by
      have : ∀ᶠ i in F, ∀ j ∈ Finset.range (particlesOf xyz masses obj.1).length,
          0 < radius (vs i) (nth (particlesOf (xyzs i) (ms i) obj.1) j) := by
        refine (Filter.eventually_all_finset _).2 fun j hj => ?_
        rw [Finset.mem_range] at hj
        exact (hnear.radius hj).eventually_const_lt (radius_pos (hcen _ (nth_mem hj)))
      filter_upwards [this] with i hi p hp hpe
      obtain ⟨j, hj, hjp⟩ := List.getElem_of_mem hp
      have hj' := hi j (Finset.mem_range.2 (by rw [← hnear.number i]; exact hj))
      have : nth (particlesOf (xyzs i) (ms i) obj.1) j = p := by
        unfold nth
        rw [List.getD_eq_getElem?_getD, List.getElem?_eq_getElem hj, hjp]; rfl
      rw [this] at hj'
      unfold radius at hj'
      rw [← hpe] at hj'
      simp at hj'
    have hall : ∀ᶠ i in F, ∀ b ∈ Finset.range radii.length, ∀ x r, row[b]? = some x → radii[b]? = some r →
        |val (R i) (vs i) (particlesOf (xyzs i) (ms i) obj.1) r - x| ≤ ε := by
      refine (Filter.eventually_all_finset _).2 fun b hb => ?_
      rw [Finset.mem_range] at hb
      have hbrow : row[b]? = some (row[b]'(by omega)) := List.getElem?_eq_getElem (by omega)
      have hbr : radii[b]? = some radii[b] := List.getElem?_eq_getElem hb
      have hr := hpos _ (List.getElem_mem hb)
      have hx : row[b]'(by omega) = val obj.2 v (particlesOf xyz masses obj.1) radii[b] := by
        rw [hval]
        beta_reduce
        rw [eq_div_iff hunit.ne']
        exact hans b _ _ hbrow hbr
      have hlim : Tendsto (fun i => val (R i) (vs i) (particlesOf (xyzs i) (ms i) obj.1) radii[b]) F
          (𝓝 (val obj.2 v (particlesOf xyz masses obj.1) radii[b])) := by
        refine Tendsto.div_const (Tendsto.mul_const _ ?_) _
        have := Binning.C181_kernel hnear hR hcen (mul_pos hr hR) (hnear.r200.const_mul radii[b])
        rw [densKernel_smoothed _ hR _ _ (fun p hp => radius_pos (hcen p hp)) _ (mul_pos hr hR)] at this
        refine this.congr' ?_
        filter_upwards [hoff, hnear.r200.eventually_const_lt hR] with i hi hRp
        exact densKernel_smoothed _ hRp _ _ (fun p hp => radius_pos (hi p hp)) _ (mul_pos hr hRp)
      rw [← hx] at hlim
      have := hlim.sub_const (row[b]'(by omega))
      rw [sub_self] at this
      have := this.abs
      rw [abs_zero] at this
      filter_upwards [this.eventually_lt_const hε] with i hi x r hx hr
      rw [hbrow] at hx
      rw [hbr] at hr
      obtain rfl := Option.some.inj hx
      obtain rfl := Option.some.inj hr
      exact hi.le
    filter_upwards [hcross, hvs, hoff, hall] with i h1 hc0 h0 h2 z obj' hz' hobj'
    rw [hz] at hz'
    obtain rfl := Option.some.inj hz'
    rw [hRi i] at hobj'
    obtain rfl := Option.some.inj hobj'
    refine ⟨h1, vs i, hc0, h0, fun b hb row' x r hrow' hx hr => ?_⟩
    rw [hrow] at hrow'
    obtain rfl := Option.some.inj hrow'
    exact h2 b (Finset.mem_range.2 hb) x r hx hr
  have hentries : ∀ᶠ i in F, ∀ k ∈ Finset.range sel.length, ∀ (z : Int) (obj' : List Nat × ℝ), sel[k]? = some z →
      (resolved minPtcs (objss i))[z.toNat]? = some obj' →
      NotCrossing box (particlesOf (xyzs i) (ms i) obj'.1) ∧
      ∃ v', plainCentre limit (1000 / (c.inL / mpch c.h)) center (particlesOf (xyzs i) (ms i) obj'.1) = some v' ∧
      (∀ p ∈ particlesOf (xyzs i) (ms i) obj'.1, p.pos ≠ v') ∧
      ∀ b < radii.length, ∀ row x r, res[k]? = some row → row[b]? = some x → radii[b]? = some r →
        |val obj'.2 v' (particlesOf (xyzs i) (ms i) obj'.1) r - x| ≤ ε :=
    (Filter.eventually_all_finset _).2 fun k hk => hentry k (Finset.mem_range.1 hk)
  filter_upwards [hentries] with i hi o' ho' out hout
  have hlr := resolved_length minPtcs (happ.members i)
  rcases kernel_rows c c' hc hc' hh (xyzs i) (ms i) box (objss i) minPtcs hmin center (hss i) (hr200s i) choose hch limit o' ho' radii hradii hpos
    sel (by rw [hlr]; exact hsel) out hout with ⟨-, z, obj, hz, hob, hnone⟩ | ⟨-, z, hz, obj', hob', hdiv⟩ | ⟨res', rfl, hlen', hrows'⟩
  · exfalso
    obtain ⟨k, hk, rfl⟩ := List.getElem_of_mem hz
    obtain ⟨h1, v', hv', -⟩ := hi k (Finset.mem_range.2 hk) _ obj (List.getElem?_eq_getElem hk) hob
    rw [hnone h1] at hv'
    cases hv'
  · exfalso
    obtain ⟨k, hk, rfl⟩ := List.getElem_of_mem hz
    obtain ⟨h1, v', hv', h2, -⟩ := hi k (Finset.mem_range.2 hk) _ obj' (List.getElem?_eq_getElem hk) hob'
    obtain ⟨w, hw, p, hp, hpe⟩ := hdiv h1
    obtain rfl : v' = w := by rw [hv'] at hw; exact Option.some.inj hw
    exact h2 p hp hpe
  · refine ⟨res', rfl, by rw [hlen', hlen], fun k row row' hrow hrow' => ?_⟩
    have hk : k < sel.length := by rw [← hlen]; exact (List.getElem?_eq_some_iff.1 hrow).1
    have hz : sel[k]? = some sel[k] := List.getElem?_eq_getElem hk
    have hzr := hsel.2.2 _ (List.getElem_mem hk)
    have hob : (resolved minPtcs objs)[sel[k].toNat]? = some ((resolved minPtcs objs)[sel[k].toNat]'(by omega)) := List.getElem?_eq_getElem (by omega)
    have hob' : (resolved minPtcs (objss i))[sel[k].toNat]? = some ((resolved minPtcs (objss i))[sel[k].toNat]'(by omega)) :=
      List.getElem?_eq_getElem (by omega)
    obtain ⟨row₀, g1, g2, -⟩ := hrows k _ _ hz hob fun p hp q hq a => ((hobj _ _ (List.getElem_mem hk) hob).1 p hp q hq a).le
    obtain rfl : row = row₀ := by rw [hrow] at g1; exact Option.some.inj g1
    obtain ⟨h1, v', hv', -, h2⟩ := hi k (Finset.mem_range.2 hk) _ _ hz hob'
    obtain ⟨row₁, f1, f2, w, hw, -, hans⟩ := hrows' k _ _ hz hob' h1
    obtain rfl : v' = w := by rw [hv'] at hw; exact Option.some.inj hw
    obtain rfl : row' = row₁ := by rw [hrow'] at f1; exact Option.some.inj f1
    refine ⟨by rw [f2, g2], fun b x x' hx hx' => ?_⟩
    have hb : b < radii.length := by rw [← g2]; exact (List.getElem?_eq_some_iff.1 hx).1
    have hbr : radii[b]? = some radii[b] := List.getElem?_eq_getElem hb
    have hx'' : x' = val ((resolved minPtcs (objss i))[sel[k].toNat]'(by omega)).2 v'
        (particlesOf (xyzs i) (ms i) ((resolved minPtcs (objss i))[sel[k].toNat]'(by omega)).1) radii[b] := by
      rw [hval]
      beta_reduce
      rw [eq_div_iff hunit.ne']
      exact hans b _ _ hx' hbr
    rw [hx'']
    exact h2 b hb row x _ hrow hx hbr

end

/-! ## The cross -/

theorem cross_mode {rad : ℝ} {last : Nat} (hr : FirstSphere rad last) (fuel : Nat) : ∀ k ≤ last, last + 1 ≤ fuel + k →
    calcMode fuel (particlesOf crossXyz [1, 1, 1, 1, 1, 1] [0, 1, 2, 3, 4, 5]) (rad * 0.83 ^ k) = some ![5, 5, 5] := by
  induction fuel with
  | zero => intro k h1 h2; omega
  | succ n ih =>
    intro k h1 h2
    rw [calcMode_succ, cross_mean]
    obtain ⟨hd, hc⟩ := cross_spheres hr k
    rcases Nat.lt_or_ge k last with hlt | hlt
    · rw [hd hlt, if_neg (by rw [cross_particles]; simp), show rad * 0.83 ^ k * 0.83 = rad * 0.83 ^ (k + 1) by ring]
      exact ih (k + 1) (by omega) (by omega)
    · rw [if_pos (hc (by omega))]

/-- The cross meets the conditions of `C184_density_any` and `C184_kernel_any` with CENTER = 'mode', and both calls return a table. -/
example (h : ℝ) (hh : 0 < h) (choose : Nat → List Nat) (hch : ∀ n, 0 < n → ∃ j ∈ choose n, j < n) (limit : Nat) (hlimit : 33 ≤ limit) :
    (OffSpheres (particlesOf crossXyz [1, 1, 1, 1, 1, 1] [0, 1, 2, 3, 4, 5]) (1000 / (mpch h / mpch h)) ∧
      ∀ v, plainCentre limit (1000 / (mpch h / mpch h)) .mode (particlesOf crossXyz [1, 1, 1, 1, 1, 1] [0, 1, 2, 3, 4, 5]) = some v →
        ∀ p ∈ particlesOf crossXyz [1, 1, 1, 1, 1, 1] [0, 1, 2, 3, 4, 5], ∀ b < [(1 / 40 : ℝ), 1 / 20].length,
          radius v p ≠ lowerEdge [1 / 40, 1 / 20] b * 100 ∧ radius v p ≠ upperEdge [1 / 40, 1 / 20] b * 100) ∧
    ∃ o res res', construct ⟨mpch h, Verif.Units.msunh10 h, 1, h, mpch h, Verif.Units.msunh10 h, 1⟩
        ⟨crossXyz, [1, 1, 1, 1, 1, 1], .nested [[0, 1, 2, 3, 4, 5]], .array [100], 20, 6, .mode⟩ = .ok o ∧
      EstDensProfs ⟨mpch h, Verif.Units.msunh10 h, 1, h, mpch h, Verif.Units.msunh10 h, 1⟩ choose limit o [1 / 40, 1 / 20] [0] (.ok res) ∧
      EstDensProfsKernel ⟨mpch h, Verif.Units.msunh10 h, 1, h, mpch h, Verif.Units.msunh10 h, 1⟩ choose limit o [1 / 40, 1 / 20] [0] (.ok res') := by
  have hl := mpch_pos hh
  have hms := msunh10_pos hh
  have hc : (⟨mpch h, Verif.Units.msunh10 h, 1, h, mpch h, Verif.Units.msunh10 h, 1⟩ : Cfg ℝ).Pos := ⟨hl, hms, one_pos, hh, hl, hms, one_pos⟩
  have hres : resolved 6 [([0, 1, 2, 3, 4, 5], (100 : ℝ))] = [([0, 1, 2, 3, 4, 5], 100)] := by simp [resolved]
  have hsel : GoodSelection [0] (resolved 6 [([0, 1, 2, 3, 4, 5], (100 : ℝ))]).length := by
    rw [hres]
    exact ⟨by simp, by simp, by simp⟩
  have hs := cross_sensible
  have hrad : 1000 / (mpch h / mpch h) = 1000 := by rw [div_self hl.ne', div_one]
  have hmode : plainCentre limit (1000 / (mpch h / mpch h)) .mode (particlesOf crossXyz [1, 1, 1, 1, 1, 1] [0, 1, 2, 3, 4, 5]) = some ![5, 5, 5] := by
    rw [hrad]
    have := cross_mode firstSphere_1000 limit 0 (by omega) (by omega)
    rw [pow_zero, mul_one] at this
    exact this
  have hnc : NotCrossing 20 (particlesOf crossXyz [1, 1, 1, 1, 1, 1] [0, 1, 2, 3, 4, 5]) := by
    intro p hp q hq a
    have h1 := cross_bounds p hp a
    have h2 := cross_bounds q hq a
    rw [abs_le]
    constructor <;> linarith
  have hradius := cross_radius
  rw [cross_mean] at hradius
  refine ⟨⟨by rw [hrad]; exact cross_off firstSphere_1000, fun v hv p hp b hb => ?_⟩, ?_⟩
  · rw [hmode] at hv
    obtain rfl := Option.some.inj hv
    obtain ⟨h1, h2⟩ := hradius p hp
    have : b = 0 ∨ b = 1 := by
      have : b < 2 := hb
      omega
    rcases this with rfl | rfl <;> constructor <;> intro hc <;> rw [hc] at h1 h2 <;> revert h1 h2 <;> norm_num [lowerEdge, upperEdge]
  · obtain ⟨o, ho⟩ : ∃ o, construct ⟨mpch h, Verif.Units.msunh10 h, 1, h, mpch h, Verif.Units.msunh10 h, 1⟩
        ⟨crossXyz, [1, 1, 1, 1, 1, 1], .nested ([([0, 1, 2, 3, 4, 5], (100 : ℝ))].map Prod.fst),
        .array ([([0, 1, 2, 3, 4, 5], (100 : ℝ))].map Prod.snd), 20, 6, .mode⟩ = .ok o :=
      ⟨_, construct_eq _ crossXyz _ 20 [([0, 1, 2, 3, 4, 5], 100)] 6 .mode hs.lengths hs.objects⟩
    obtain ⟨out, hout⟩ := C96_outcome_exists _ ⟨mpch h, Verif.Units.msunh10 h, 1, h, mpch h, Verif.Units.msunh10 h, 1⟩ crossXyz _ 20
      [([0, 1, 2, 3, 4, 5], 100)] 6 (by norm_num) .mode hs choose limit o ho [1 / 40, 1 / 20] [0] hsel
    obtain ⟨out', hout'⟩ := C113_outcome_exists _ ⟨mpch h, Verif.Units.msunh10 h, 1, h, mpch h, Verif.Units.msunh10 h, 1⟩ crossXyz _ 20
      [([0, 1, 2, 3, 4, 5], 100)] 6 (by norm_num) .mode hs choose limit o ho [1 / 40, 1 / 20] [0] hsel
    have hthe : ∀ (z : Int) (obj : List Nat × ℝ), z ∈ ([0] : List Int) → (resolved 6 [([0, 1, 2, 3, 4, 5], (100 : ℝ))])[z.toNat]? = some obj →
        obj = ([0, 1, 2, 3, 4, 5], 100) := by
      intro z obj hz hob
      simp only [List.mem_singleton] at hz
      subst hz
      rw [hres] at hob
      exact (Option.some.inj hob).symm
    rcases density_rows _ _ hc hc rfl crossXyz _ 20 [([0, 1, 2, 3, 4, 5], 100)] 6 (by norm_num) .mode hs (by simp) choose hch limit o ho
      [1 / 40, 1 / 20] (by simp) (by simp; norm_num) (by norm_num) [0] hsel out hout with ⟨-, z, obj, hz, hob, hnone⟩ | ⟨res, rfl, -⟩
    · exfalso
      obtain rfl := hthe z obj hz hob
      rw [hmode] at hnone
      cases hnone hnc
    rcases kernel_rows _ _ hc hc rfl crossXyz _ 20 [([0, 1, 2, 3, 4, 5], 100)] 6 (by norm_num) .mode hs (by simp) choose hch limit o ho
      [1 / 40, 1 / 20] (by simp) (by norm_num) [0] hsel out' hout' with ⟨-, z, obj, hz, hob, hnone⟩ | ⟨-, z, hz, obj, hob, hdiv⟩ | ⟨res', rfl, -⟩
    · exfalso
      obtain rfl := hthe z obj hz hob
      rw [hmode] at hnone
      cases hnone hnc
    · exfalso
      obtain rfl := hthe z obj hz hob
      obtain ⟨v, hv, p, hp, hpe⟩ := hdiv hnc
      rw [hmode] at hv
      obtain rfl := Option.some.inj hv
      have := (hradius p hp).1
      unfold radius at this
      rw [← hpe] at this
      norm_num at this
    · exact ⟨o, res, res', ho, hout, hout'⟩

end Verif.Api
