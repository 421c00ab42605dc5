import Verif.Api.Margin
import Verif.Api.AgreeBins

/-!
# Results at a radius and the other radii asked for (C188)
-/

namespace Verif.Api

open Verif.Periodic Verif.Binning
open Verif (Vec Particle weightedMean totalMass)
open Verif.Units Verif.Catalogue Verif.Periodic Verif.Binning Verif.Par
open Verif.Shapes (Solver GoodSolver Settings aloneShapes localSpread positionPts pureOne shellAt)

/-! ## Specification -/

/-- Number `b` of the radii of `katz` is number `b'` of those of `katz'`, all other settings are the same; for shells, both are the first, or the
radii before them are equal as well. -/
structure SameRadius (katz : Katz) (b : Nat) (katz' : Katz) (b' : Nat) : Prop where
  tol : katz.tol = katz'.tol
  wall : katz.wall = katz'.wall
  itMin : katz.itMin = katz'.itMin
  reduced : katz.reduced = katz'.reduced
  shells : katz.shellBased = katz'.shellBased
  radius : katz.radii[b]? = katz'.radii[b']?
  before : katz.shellBased = true → (b = 0 ∧ b' = 0) ∨ (b ≠ 0 ∧ b' ≠ 0 ∧ katz.radii[b - 1]? = katz'.radii[b' - 1]?)

/-! ## C188 -/

/-- C188, shapes: the local shape at a radius does not depend on the other radii (with shells: except the one before), nor on the selection. -/
theorem C188_shapes_partial (c c' : Cfg ℝ) (hc : c.Pos)
    (xyz : List (Vec ℝ)) (masses : List ℝ) (box : ℝ) (objs : List (List Nat × ℝ)) (minPtcs : Int)
    (hmin : 1 ≤ minPtcs) (center : Center) (hs : Sensible xyz masses box objs) (sol : Solver)
    (choose : Nat → List Nat) (limit : Nat) (o : Obj)
    (ho : construct c ⟨xyz, masses, .nested (objs.map Prod.fst), .array (objs.map Prod.snd), box,
      minPtcs, center⟩ = .ok o)
    (katz katz' : Katz) (b b' : Nat) (hkatz : SameRadius katz b katz' b')
    (sel sel' : List Int) (hsel : GoodSelection sel (resolved minPtcs objs).length)
    (hsel' : GoodSelection sel' (resolved minPtcs objs).length)
    (res res' : List (List ShapeEntry))
    (hrun : GetShapeCat c' sol choose limit o katz false sel (.ok res))
    (hrun' : GetShapeCat c' sol choose limit o katz' false sel' (.ok res'))
    (k k' : Nat) (w : Int) (hk : sel[k]? = some w) (hk' : sel'[k']? = some w)
    (obj : List Nat × ℝ) (hobj : (resolved minPtcs objs)[w.toNat]? = some obj) (hr : 0 < obj.2)
    (row row' : List ShapeEntry) (hrow : res[k]? = some row) (hrow' : res'[k']? = some row')
    (e e' : ShapeEntry) (he : row[b]? = some e) (he' : row'[b']? = some e') :
    e = e' := by
  have hl : 0 < c.inL / mpch c.h := div_pos hc.inL (mpch_pos hc.h)
  set f := c.inL / mpch c.h with hf
  have hr0 : obj.2 * f ≠ 0 := (mul_pos hr hl).ne'
  rcases shape_rows c c' xyz masses box objs minPtcs hmin center hs sol choose limit o ho katz false sel hsel _ hrun with
    ⟨h, -⟩ | ⟨rows, -, hout, hrows⟩
  · cases h
  rcases shape_rows c c' xyz masses box objs minPtcs hmin center hs sol choose limit o ho katz' false sel' hsel' _ hrun' with
    ⟨h, -⟩ | ⟨rows', -, hout', hrows'⟩
  · cases h
  obtain ⟨-, v, hv, hR⟩ := hrows k w obj hk hobj
  obtain ⟨-, v', hv', hR'⟩ := hrows' k' w obj hk' hobj
  rw [hv] at hv'
  obtain rfl := Option.some.inj hv'
  rcases hout with ⟨h, -⟩ | ⟨res1, h, -, hres⟩
  · cases h
  obtain rfl := Except.ok.inj h
  rcases hout' with ⟨h, -⟩ | ⟨res1', h, -, hres'⟩
  · cases h
  obtain rfl := Except.ok.inj h
  obtain ⟨ms, hms, h1⟩ := hres k _ hR
  obtain ⟨ms', hms', h1'⟩ := hres' k' _ hR'
  rw [hrow] at h1
  rw [hrow'] at h1'
  obtain rfl := Option.some.inj h1
  obtain rfl := Option.some.inj h1'
  rw [List.getElem?_map] at he he'
  obtain ⟨m, hm, rfl⟩ := Option.map_eq_some_iff.1 he
  obtain ⟨m', hm', rfl⟩ := Option.map_eq_some_iff.1 he'
  have hcol := aloneShapes_column _ false _ hr0 ms hms b m hm
  have hcol' := aloneShapes_column _ false _ hr0 ms' hms' b' m' hm'
  have hvol : volumeAt (katz.settings sol (box * f)) false (obj.2 * f) b = volumeAt (katz'.settings sol (box * f)) false (obj.2 * f) b' := by
    have key : ∀ (K : Katz) (b : Nat), volumeAt (K.settings sol (box * f)) false (obj.2 * f) b = (obj.2 * f * K.radii[b]?.getD 0,
        if K.shellBased then if b = 0 then some (obj.2 * f * K.radii[b]?.getD 0)
          else some (obj.2 * f * K.radii[b]?.getD 0 - obj.2 * f * K.radii[b - 1]?.getD 0) else none) := fun _ _ => rfl
    rw [key, key, hkatz.radius, ← hkatz.shells]
    by_cases hsb : katz.shellBased = true
    · rw [if_pos hsb, if_pos hsb]
      rcases hkatz.before hsb with ⟨rfl, rfl⟩ | ⟨h0, h0', hbef⟩
      · rfl
      · rw [if_neg h0, if_neg h0', hbef]
    · rw [if_neg hsb, if_neg hsb]
  have hmm : some m = some m' := by
    rw [hcol, hcol', hvol]
    simp only [Katz.settings, Settings.config, hkatz.tol, hkatz.wall, hkatz.itMin, hkatz.reduced]
    rfl
  rw [Option.some.inj hmm]

/-- C188, kernel-based density profiles: the density at a radius does not depend on the other radii, nor on the selection. -/
theorem C188_kernel_partial (c c' : Cfg ℝ) (hc : c.Pos) (hc' : c'.Pos) (hh : c'.h = c.h)
    (xyz : List (Vec ℝ)) (masses : List ℝ) (box : ℝ) (objs : List (List Nat × ℝ)) (minPtcs : Int) (hmin : 1 ≤ minPtcs) (center : Center)
    (hs : Sensible xyz masses box objs) (hr200 : ∀ o ∈ objs, 0 < o.2)
    (choose : Nat → List Nat) (hch : ∀ n, 0 < n → ∃ j ∈ choose n, j < n) (limit : Nat) (o : Obj)
    (ho : construct c ⟨xyz, masses, .nested (objs.map Prod.fst), .array (objs.map Prod.snd), box, minPtcs, center⟩ = .ok o)
    (radii : List ℝ) (hpos : ∀ r ∈ radii, 0 < r) (radii' : List ℝ) (hpos' : ∀ r ∈ radii', 0 < r)
    (sel sel' : List Int) (hsel : GoodSelection sel (resolved minPtcs objs).length) (hsel' : GoodSelection sel' (resolved minPtcs objs).length)
    (res res' : List (List ℝ)) (hrun : EstDensProfsKernel c' choose limit o radii sel (.ok res))
    (hrun' : EstDensProfsKernel c' choose limit o radii' sel' (.ok res'))
    (k k' : Nat) (z : Int) (hk : sel[k]? = some z) (hk' : sel'[k']? = some z)
    (obj : List Nat × ℝ) (hobj : (resolved minPtcs objs)[z.toNat]? = some obj) (hnc : NotCrossing box (particlesOf xyz masses obj.1))
    (b b' : Nat) (r : ℝ) (hb : radii[b]? = some r) (hb' : radii'[b']? = some r)
    (row row' : List ℝ) (hrow : res[k]? = some row) (hrow' : res'[k']? = some row')
    (dens dens' : ℝ) (hd : row[b]? = some dens) (hd' : row'[b']? = some dens') : dens = dens' := by
  have hne : radii ≠ [] := by rintro rfl; simp at hb
  have hne' : radii' ≠ [] := by rintro rfl; simp at hb'
  rcases kernel_rows c c' hc hc' hh xyz masses box objs minPtcs hmin center hs hr200 choose hch limit o ho radii hne hpos sel hsel _ hrun with
    ⟨h, -⟩ | ⟨h, -⟩ | ⟨res₁, h, -, hrows⟩
  · cases h
  · cases h
  obtain rfl : res = res₁ := by cases h; rfl
  rcases kernel_rows c c' hc hc' hh xyz masses box objs minPtcs hmin center hs hr200 choose hch limit o ho radii' hne' hpos' sel' hsel' _ hrun' with
    ⟨h, -⟩ | ⟨h, -⟩ | ⟨res₁, h, -, hrows'⟩
  · cases h
  · cases h
  obtain rfl : res' = res₁ := by cases h; rfl
  obtain ⟨row₁, e1, -, v, hv, -, hq⟩ := hrows k z obj hk hobj hnc
  obtain ⟨row₁', e1', -, v', hv', -, hq'⟩ := hrows' k' z obj hk' hobj hnc
  obtain rfl : v = v' := Option.some.inj (hv.symm.trans hv')
  rw [hrow] at e1
  rw [hrow'] at e1'
  obtain rfl := Option.some.inj e1
  obtain rfl := Option.some.inj e1'
  have h1 := hq b dens r hd hb
  have h2 := hq' b' dens' r hd' hb'
  have hp : (c'.outM / c'.outL ^ 3) ≠ 0 := (div_pos hc'.outM (pow_pos hc'.outL 3)).ne'
  exact mul_right_cancel₀ hp (h1.trans h2.symm)

/-- C188, binned density profiles: the density at a radius does depend on the neighbouring radii, but on no others, nor on the selection. -/
theorem C188_density_partial (c c' : Cfg ℝ) (hc : c.Pos) (hc' : c'.Pos) (hh : c'.h = c.h)
    (xyz : List (Vec ℝ)) (masses : List ℝ) (box : ℝ) (objs : List (List Nat × ℝ)) (minPtcs : Int) (hmin : 1 ≤ minPtcs) (center : Center)
    (hs : Sensible xyz masses box objs) (hr200 : ∀ o ∈ objs, 0 < o.2)
    (choose : Nat → List Nat) (hch : ∀ n, 0 < n → ∃ j ∈ choose n, j < n) (limit : Nat) (o : Obj)
    (ho : construct c ⟨xyz, masses, .nested (objs.map Prod.fst), .array (objs.map Prod.snd), box, minPtcs, center⟩ = .ok o)
    (before before' : List ℝ) (x r y : ℝ) (after after' : List ℝ) (radii radii' : List ℝ)
    (hform : radii = before ++ x :: r :: y :: after) (hform' : radii' = before' ++ x :: r :: y :: after')
    (hinc : radii.Pairwise (· < ·)) (hpos : ∀ r ∈ radii, 1e-8 < r) (hinc' : radii'.Pairwise (· < ·)) (hpos' : ∀ r ∈ radii', 1e-8 < r)
    (sel sel' : List Int) (hsel : GoodSelection sel (resolved minPtcs objs).length) (hsel' : GoodSelection sel' (resolved minPtcs objs).length)
    (res res' : List (List ℝ)) (hrun : EstDensProfs c' choose limit o radii sel (.ok res))
    (hrun' : EstDensProfs c' choose limit o radii' sel' (.ok res'))
    (k k' : Nat) (z : Int) (hk : sel[k]? = some z) (hk' : sel'[k']? = some z)
    (obj : List Nat × ℝ) (hobj : (resolved minPtcs objs)[z.toNat]? = some obj) (hnc : NotCrossing box (particlesOf xyz masses obj.1))
    (row row' : List ℝ) (hrow : res[k]? = some row) (hrow' : res'[k']? = some row')
    (dens dens' : ℝ) (hd : row[before.length + 1]? = some dens) (hd' : row'[before'.length + 1]? = some dens') : dens = dens' := by
  have hne : radii ≠ [] := by rw [hform]; simp
  have hne' : radii' ≠ [] := by rw [hform']; simp
  have edges : ∀ (before after : List ℝ), lowerEdge (before ++ x :: r :: y :: after) (before.length + 1) = (x + r) / 2 ∧
      upperEdge (before ++ x :: r :: y :: after) (before.length + 1) = (r + y) / 2 := by
    intro before after
    unfold lowerEdge upperEdge
    constructor
    · rw [if_neg (by omega)]
      simp
    · rw [if_neg (by simp only [List.length_append, List.length_cons]; omega)]
      simp [add_assoc]
  have hxr : x < r ∧ r < y ∧ 0 < x := by
    have h1 := hinc
    rw [hform, List.pairwise_append] at h1
    have h2 := h1.2.1
    simp only [List.pairwise_cons, List.mem_cons] at h2
    refine ⟨h2.1 r (.inl rfl), h2.2.1 y (.inl rfl), ?_⟩
    have := hpos x (by rw [hform]; simp)
    norm_num at this
    linarith
  have hr : 0 < obj.2 := hr200 obj (List.mem_filter.1 (List.mem_of_getElem? hobj)).1
  rcases density_rows c c' hc hc' hh xyz masses box objs minPtcs hmin center hs hr200 choose hch limit o ho radii hne hinc hpos sel hsel _ hrun with
    ⟨h, -⟩ | ⟨res₁, h, -, hrows⟩
  · cases h
  obtain rfl : res = res₁ := by cases h; rfl
  rcases density_rows c c' hc hc' hh xyz masses box objs minPtcs hmin center hs hr200 choose hch limit o ho radii' hne' hinc' hpos' sel' hsel' _ hrun' with
    ⟨h, -⟩ | ⟨res₁, h, -, hrows'⟩
  · cases h
  obtain rfl : res' = res₁ := by cases h; rfl
  obtain ⟨row₁, e1, -, v, hv, hq⟩ := hrows k z obj hk hobj hnc
  obtain ⟨row₁', e1', -, v', hv', hq'⟩ := hrows' k' z obj hk' hobj hnc
  obtain rfl : v = v' := Option.some.inj (hv.symm.trans hv')
  rw [hrow] at e1
  rw [hrow'] at e1'
  obtain rfl := Option.some.inj e1
  obtain rfl := Option.some.inj e1'
  have h1 := hq _ dens hd
  have h2 := hq' _ dens' hd'
  rw [hform, (edges before after).1, (edges before after).2] at h1
  rw [hform', (edges before' after').1, (edges before' after').2] at h2
  have hp : (c'.outM / c'.outL ^ 3) ≠ 0 := (div_pos hc'.outM (pow_pos hc'.outL 3)).ne'
  have hV : shellVolume ((x + r) / 2 * obj.2 * c.inL) ((r + y) / 2 * obj.2 * c.inL) ≠ 0 := by
    unfold shellVolume
    refine mul_ne_zero (by positivity) (sub_pos.2 (pow_lt_pow_left₀ ?_ ?_ (by norm_num))).ne'
    · exact mul_lt_mul_of_pos_right (mul_lt_mul_of_pos_right (by linarith [hxr.1, hxr.2.1]) hr) hc.inL
    · have : 0 < (x + r) / 2 := by linarith [hxr.1, hxr.2.2]
      have := hc.inL
      positivity
  exact mul_right_cancel₀ hp (mul_right_cancel₀ hV (h1.trans h2.symm))

/-- The density at a radius depends on the next radius: the cross has density zero at R200/100 if this is the only radius, and positive density if
R200/10 is asked for as well. -/
theorem C188_density_refuted (h : ℝ) (hh : 0 < h) (choose : Nat → List Nat) (hch : ∀ n, 0 < n → ∃ j ∈ choose n, j < n) (limit : Nat) (o : Obj)
    (ho : construct ⟨mpch h, msunh10 h, 1, h, mpch h, msunh10 h, 1⟩
      ⟨crossXyz, [1, 1, 1, 1, 1, 1], .nested [[0, 1, 2, 3, 4, 5]], .array [100], 20, 6, .com⟩ = .ok o)
    (out out' : Except Err (List (List ℝ)))
    (hrun : EstDensProfs ⟨mpch h, msunh10 h, 1, h, mpch h, msunh10 h, 1⟩ choose limit o [1 / 100] [0] out)
    (hrun' : EstDensProfs ⟨mpch h, msunh10 h, 1, h, mpch h, msunh10 h, 1⟩ choose limit o [1 / 100, 1 / 10] [0] out') :
    ∃ dens dens' other : ℝ, out = .ok [[dens]] ∧ out' = .ok [[dens', other]] ∧ dens = 0 ∧ 0 < dens' := by
  have hl := mpch_pos hh
  have hms := msunh10_pos hh
  have hcfg : (⟨mpch h, msunh10 h, 1, h, mpch h, msunh10 h, 1⟩ : Cfg ℝ).Pos := ⟨hl, hms, one_pos, hh, hl, hms, one_pos⟩
  have hres : resolved 6 [([0, 1, 2, 3, 4, 5], (100 : ℝ))] = [([0, 1, 2, 3, 4, 5], 100)] := by simp [resolved]
  have hsel : GoodSelection [0] (resolved 6 [([0, 1, 2, 3, 4, 5], (100 : ℝ))]).length := by
    rw [hres]
    exact ⟨by simp, by simp, by simp⟩
  have hnc : NotCrossing 20 (particlesOf crossXyz [1, 1, 1, 1, 1, 1] [0, 1, 2, 3, 4, 5]) := by
    intro p hp q hq a
    have h1 := cross_bounds p hp a
    have h2 := cross_bounds q hq a
    rw [abs_le]
    constructor <;> linarith
  have hmean : weightedMean (particlesOf crossXyz [1, 1, 1, 1, 1, 1] [0, 1, 2, 3, 4, 5]) = ![5, 5, 5] := cross_facts.2.2.2.2.1
  have hdist : ∀ p ∈ particlesOf crossXyz [1, 1, 1, 1, 1, 1] [0, 1, 2, 3, 4, 5], 1 ≤ radius ![5, 5, 5] p ∧ radius ![5, 5, 5] p ≤ 3 ∧ p.mass = 1 := by
    rw [cross_facts.2.2.1]
    intro p hp
    simp only [List.mem_cons, List.not_mem_nil, or_false] at hp
    unfold radius
    rw [Real.le_sqrt' one_pos, Real.sqrt_le_left (by norm_num)]
    rcases hp with rfl | rfl | rfl | rfl | rfl | rfl <;> simp [dist2] <;> norm_num
  have hob : (resolved 6 [([0, 1, 2, 3, 4, 5], (100 : ℝ))])[(0 : Int).toNat]? = some ([0, 1, 2, 3, 4, 5], 100) := by rw [hres]; rfl
  have one : ∀ (radii : List ℝ) (hne : radii ≠ []) (hinc : radii.Pairwise (· < ·)) (hpos : ∀ r ∈ radii, 1e-8 < r)
      (out : Except Err (List (List ℝ))), EstDensProfs ⟨mpch h, msunh10 h, 1, h, mpch h, msunh10 h, 1⟩ choose limit o radii [0] out →
      ∃ row : List ℝ, out = .ok [row] ∧ row.length = radii.length ∧ ∀ (b : Nat) (dens : ℝ), row[b]? = some dens →
        dens * (msunh10 h / mpch h ^ 3) * shellVolume (lowerEdge radii b * 100 * mpch h) (upperEdge radii b * 100 * mpch h) =
          massBetween ![5, 5, 5] (particlesOf crossXyz [1, 1, 1, 1, 1, 1] [0, 1, 2, 3, 4, 5]) (lowerEdge radii b * 100) (upperEdge radii b * 100) *
            msunh10 h := by
    intro radii hne hinc hpos out hrun
    rcases C96_density_partial _ _ hcfg hcfg rfl crossXyz [1, 1, 1, 1, 1, 1] 20 [([0, 1, 2, 3, 4, 5], 100)] 6 (by norm_num) .com
      cross_sensible (by simp) choose hch limit o ho radii hne hinc hpos [0] hsel out hrun with ⟨-, h1⟩ | ⟨res, rfl, hlen, hall⟩
    · cases h1
    obtain ⟨row, hrow, hrl, sub, -, -, hsub, hd⟩ := hall 0 0 _ rfl hob hnc
    rw [hsub rfl, hmean] at hd
    match res, hlen, hrow with
    | [row'], _, hrow =>
      obtain rfl := Option.some.inj hrow
      exact ⟨row', rfl, hrl, hd⟩
  obtain ⟨row, rfl, hrl, hd⟩ := one [1 / 100] (by simp) (by simp) (by
    intro r hr
    rw [List.mem_singleton] at hr
    rw [hr]; norm_num) out hrun
  obtain ⟨row', rfl, hrl', hd'⟩ := one [1 / 100, 1 / 10] (by simp) (by simp; norm_num) (by
    intro r hr
    simp only [List.mem_cons, List.not_mem_nil, or_false] at hr
    rcases hr with rfl | rfl <;> norm_num) out' hrun'
  match row, hrl, hd with
  | [dens], _, hd =>
    match row', hrl', hd' with
    | [dens', other], _, hd' =>
      refine ⟨dens, dens', other, rfl, rfl, ?_, ?_⟩
      · have h1 := hd 0 dens rfl
        have e1 : lowerEdge [1 / 100] 0 = 1e-8 := by simp [lowerEdge]
        have e2 : upperEdge [1 / 100] 0 = 1 / 100 := by simp [upperEdge]
        rw [e1, e2] at h1
        have e3 : massBetween ![5, 5, 5] (particlesOf crossXyz [1, 1, 1, 1, 1, 1] [0, 1, 2, 3, 4, 5]) (1e-8 * 100) (1 / 100 * 100) = 0 := by
          unfold massBetween
          rw [List.filter_eq_nil_iff.2]
          · rfl
          · intro p hp hq
            have := (of_decide_eq_true hq).2
            have := (hdist p hp).1
            linarith
        rw [e3, zero_mul] at h1
        have hV : shellVolume (1e-8 * 100 * mpch h) (1 / 100 * 100 * mpch h) ≠ 0 := by
          unfold shellVolume
          refine mul_ne_zero (by positivity) (sub_pos.2 (pow_lt_pow_left₀ ?_ (by positivity) (by norm_num))).ne'
          exact mul_lt_mul_of_pos_right (by norm_num) hl
        have h2 := (mul_eq_zero.1 h1).resolve_right hV
        exact (mul_eq_zero.1 h2).resolve_right (by positivity)
      · have h1 := hd' 0 dens' rfl
        have e1 : lowerEdge [1 / 100, 1 / 10] 0 = 1e-8 := by simp [lowerEdge]
        have e2 : upperEdge [1 / 100, 1 / 10] 0 = 11 / 200 := by simp [upperEdge]; norm_num
        rw [e1, e2] at h1
        have e3 : 0 < massBetween ![5, 5, 5] (particlesOf crossXyz [1, 1, 1, 1, 1, 1] [0, 1, 2, 3, 4, 5]) (1e-8 * 100) (11 / 200 * 100) := by
          unfold massBetween
          rw [List.filter_eq_self.2]
          · rw [cross_facts.2.2.1]; simp; norm_num
          · intro p hp
            have := hdist p hp
            rw [decide_eq_true_eq]
            constructor <;> norm_num <;> linarith
        have hV : 0 < shellVolume (1e-8 * 100 * mpch h) (11 / 200 * 100 * mpch h) := by
          unfold shellVolume
          refine mul_pos (by positivity) (sub_pos.2 (pow_lt_pow_left₀ ?_ (by positivity) (by norm_num)))
          exact mul_lt_mul_of_pos_right (by norm_num) hl
        have h2 : 0 < dens' * (msunh10 h / mpch h ^ 3) * shellVolume (1e-8 * 100 * mpch h) (11 / 200 * 100 * mpch h) := by
          rw [h1]; positivity
        have h3 := (mul_pos_iff_of_pos_right hV).1 h2
        exact (mul_pos_iff_of_pos_right (by positivity)).1 h3

/-- Radii as in `C188_shapes_partial`, with and without shells. -/
example : SameRadius ⟨[1 / 2, 1], 1 / 10, 100, 6, false, false⟩ 1 ⟨[1], 1 / 10, 100, 6, false, false⟩ 0 ∧
    SameRadius ⟨[1 / 4, 1 / 2, 1], 1 / 10, 100, 6, true, true⟩ 2 ⟨[1 / 2, 1, 2], 1 / 10, 100, 6, true, true⟩ 1 := by
  exact ⟨⟨rfl, rfl, rfl, rfl, rfl, rfl, by simp⟩, ⟨rfl, rfl, rfl, rfl, rfl, rfl, by simp⟩⟩

/-- Calls as in `C188_density_partial` return: the cross with two lists of radii which share three neighbours. -/
example (h : ℝ) (hh : 0 < h) : ∃ o, construct ⟨mpch h, msunh10 h, 1, h, mpch h, msunh10 h, 1⟩
      ⟨crossXyz, [1, 1, 1, 1, 1, 1], .nested [[0, 1, 2, 3, 4, 5]], .array [100], 20, 6, .com⟩ = .ok o ∧
    (∃ res, EstDensProfs ⟨mpch h, msunh10 h, 1, h, mpch h, msunh10 h, 1⟩ (fun _ => [0]) 100 o ([] ++ 1 / 100 :: 1 / 20 :: 1 / 10 :: []) [0] (.ok res)) ∧
    ∃ res, EstDensProfs ⟨mpch h, msunh10 h, 1, h, mpch h, msunh10 h, 1⟩ (fun _ => [0]) 100 o ([1 / 200] ++ 1 / 100 :: 1 / 20 :: 1 / 10 :: [1]) [0]
      (.ok res) := by
  have hl := mpch_pos hh
  have hms := msunh10_pos hh
  have hcfg : (⟨mpch h, msunh10 h, 1, h, mpch h, msunh10 h, 1⟩ : Cfg ℝ).Pos := ⟨hl, hms, one_pos, hh, hl, hms, one_pos⟩
  have hsel : GoodSelection [0] (resolved 6 [([0, 1, 2, 3, 4, 5], (100 : ℝ))]).length := by
    rw [show resolved 6 [([0, 1, 2, 3, 4, 5], (100 : ℝ))] = [([0, 1, 2, 3, 4, 5], 100)] by simp [resolved]]
    exact ⟨by simp, by simp, by simp⟩
  obtain ⟨o, hcon⟩ : ∃ o, construct ⟨mpch h, msunh10 h, 1, h, mpch h, msunh10 h, 1⟩
      ⟨crossXyz, [1, 1, 1, 1, 1, 1], .nested [[0, 1, 2, 3, 4, 5]], .array [100], 20, 6, .com⟩ = .ok o :=
    ⟨_, construct_eq (⟨mpch h, msunh10 h, 1, h, mpch h, msunh10 h, 1⟩ : Cfg ℝ) crossXyz [1, 1, 1, 1, 1, 1] 20 [([0, 1, 2, 3, 4, 5], 100)] 6 .com
    cross_sensible.lengths cross_sensible.objects⟩
  have one : ∀ (radii : List ℝ) (hne : radii ≠ []) (hinc : radii.Pairwise (· < ·)) (hpos : ∀ r ∈ radii, 1e-8 < r),
      ∃ res, EstDensProfs ⟨mpch h, msunh10 h, 1, h, mpch h, msunh10 h, 1⟩ (fun _ => [0]) 100 o radii [0] (.ok res) := by
    intro radii hne hinc hpos
    obtain ⟨out, hout⟩ := C96_outcome_exists _ (⟨mpch h, msunh10 h, 1, h, mpch h, msunh10 h, 1⟩ : Cfg ℝ) crossXyz [1, 1, 1, 1, 1, 1] 20
      [([0, 1, 2, 3, 4, 5], 100)] 6 (by norm_num) .com cross_sensible (fun _ => [0]) 100 _ hcon radii [0] hsel
    rcases C96_density_partial _ _ hcfg hcfg rfl crossXyz [1, 1, 1, 1, 1, 1] 20 [([0, 1, 2, 3, 4, 5], 100)] 6 (by norm_num) .com
      cross_sensible (by simp) (fun _ => [0]) (fun n hn => ⟨0, by simp, hn⟩) 100 _ hcon radii hne hinc hpos [0] hsel out hout with
      ⟨-, h1⟩ | ⟨res, rfl, -, -⟩
    · cases h1
    · exact ⟨res, hout⟩
  refine ⟨_, hcon, one _ (by simp) (by simp; norm_num) ?_, one _ (by simp) (by simp; norm_num) ?_⟩
  · intro r hr
    simp only [List.nil_append, List.mem_cons, List.not_mem_nil, or_false] at hr
    rcases hr with rfl | rfl | rfl <;> norm_num
  · intro r hr
    simp only [List.cons_append, List.nil_append, List.mem_cons, List.not_mem_nil, or_false] at hr
    rcases hr with rfl | rfl | rfl | rfl | rfl <;> norm_num

end Verif.Api
