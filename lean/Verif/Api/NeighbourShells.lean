import Verif.Api.Neighbours
import Verif.Shapes.Shells

/-!
# Shells and the other radii asked for (C188)
-/

namespace Verif.Api

open Verif.Units Verif.Catalogue Verif.Periodic Verif.Par Verif.Shapes

/-- A shell as thick as the ellipsoid is the ellipsoid (C166), for the result of one radius. -/
theorem pureOne_innermost (cfg : Config) (morph : Morph) :
    pureOne { cfg with deltaD := some cfg.d } morph = pureOne { cfg with deltaD := none } morph := by
  let sc : Scratch := ⟨[], List.replicate cfg.pts.length 0, List.replicate cfg.pts.length 0, fun _ _ => 0⟩
  have h1 := (runOne_pure { cfg with deltaD := some cfg.d } morph sc (by simp [sc]) (by simp [sc])).1
  have h2 := (runOne_pure { cfg with deltaD := none } morph sc (by simp [sc]) (by simp [sc])).1
  rw [← h1, ← h2]
  unfold runOne
  rw [C166_innermost]

/-- C188, the first shell: the entry at the first radius is the same with and without shells. -/
theorem C188_first_shell (c c' : Cfg ℝ) (hc : c.Pos)
    (xyz : List (Vec ℝ)) (masses : List ℝ) (box : ℝ) (objs : List (List Nat × ℝ)) (minPtcs : Int)
    (hmin : 1 ≤ minPtcs) (center : Center) (hs : Sensible xyz masses box objs) (sol : Solver)
    (choose : Nat → List Nat) (limit : Nat) (o : Obj)
    (ho : construct c ⟨xyz, masses, .nested (objs.map Prod.fst), .array (objs.map Prod.snd), box,
      minPtcs, center⟩ = .ok o)
    (katz : Katz) (radii' : List ℝ)
    (sel sel' : List Int) (hsel : GoodSelection sel (resolved minPtcs objs).length)
    (hsel' : GoodSelection sel' (resolved minPtcs objs).length)
    (res res' : List (List ShapeEntry))
    (hrun : GetShapeCat c' sol choose limit o { katz with shellBased := true } false sel (.ok res))
    (hrun' : GetShapeCat c' sol choose limit o { katz with shellBased := false, radii := radii' } false sel' (.ok res'))
    (b : Nat) (hb : katz.radii[0]? = radii'[b]?)
    (k k' : Nat) (w : Int) (hk : sel[k]? = some w) (hk' : sel'[k']? = some w)
    (obj : List Nat × ℝ) (hobj : (resolved minPtcs objs)[w.toNat]? = some obj) (hr : 0 < obj.2)
    (row row' : List ShapeEntry) (hrow : res[k]? = some row) (hrow' : res'[k']? = some row')
    (e e' : ShapeEntry) (he : row[0]? = some e) (he' : row'[b]? = some e') :
    e = e' := by
  have hl : 0 < c.inL / mpch c.h := div_pos hc.inL (mpch_pos hc.h)
  set f := c.inL / mpch c.h with hf
  have hr0 : obj.2 * f ≠ 0 := (mul_pos hr hl).ne'
  rcases shape_rows c c' xyz masses box objs minPtcs hmin center hs sol choose limit o ho _ false sel hsel _ hrun with
    ⟨h, -⟩ | ⟨rows, -, hout, hrows⟩
  · cases h
  rcases shape_rows c c' xyz masses box objs minPtcs hmin center hs sol choose limit o ho _ false sel' hsel' _ hrun' with
    ⟨h, -⟩ | ⟨rows', -, hout', hrows'⟩
  · cases h
  obtain ⟨-, v, hv, hR⟩ := hrows k w obj hk hobj
  obtain ⟨-, v', hv', hR'⟩ := hrows' k' w obj hk' hobj
  rw [hv] at hv'
  obtain rfl := Option.some.inj hv'
  rcases hout with ⟨h, -⟩ | ⟨res1, h, -, hres⟩
  · cases h
  obtain rfl := Except.ok.inj h
  rcases hout' with ⟨h, -⟩ | ⟨res1', h, -, hres'⟩
  · cases h
  obtain rfl := Except.ok.inj h
  obtain ⟨ms, hms, h1⟩ := hres k _ hR
  obtain ⟨ms', hms', h1'⟩ := hres' k' _ hR'
  rw [hrow] at h1
  rw [hrow'] at h1'
  obtain rfl := Option.some.inj h1
  obtain rfl := Option.some.inj h1'
  rw [List.getElem?_map] at he he'
  obtain ⟨m, hm, rfl⟩ := Option.map_eq_some_iff.1 he
  obtain ⟨m', hm', rfl⟩ := Option.map_eq_some_iff.1 he'
  have hcol := aloneShapes_column _ false _ hr0 ms hms 0 m hm
  have hcol' := aloneShapes_column _ false _ hr0 ms' hms' b m' hm'
  have hvol : volumeAt ({ katz with shellBased := true }.settings sol (box * f)) false (obj.2 * f) 0 =
      (obj.2 * f * katz.radii[0]?.getD 0, some (obj.2 * f * katz.radii[0]?.getD 0)) := rfl
  have hvol' : volumeAt ({ katz with shellBased := false, radii := radii' }.settings sol (box * f)) false (obj.2 * f) b =
      (obj.2 * f * katz.radii[0]?.getD 0, none) := by rw [hb]; rfl
  have hmm : some m = some m' := by
    rw [hcol, hcol', hvol, hvol']
    split_ifs with h1 h2 h2
    · rfl
    · exact absurd h1 h2
    · exact absurd h2 h1
    · exact pureOne_innermost ((Katz.settings katz sol (box * f)).config (positionPts (Katz.settings katz sol (box * f)) _) v v
        (obj.2 * f * katz.radii[0]?.getD 0) none) _
  rw [Option.some.inj hmm]

/-- A single radius: with and without shells. -/
theorem aloneShapes_shell (sol : Solver) (L : ℝ) (o : ObjData) :
    aloneShapes (Katz.settings ⟨[1], 1 / 10, 100, 6, false, true⟩ sol L) (kindOf false) o =
      aloneShapes (Katz.settings ⟨[1], 1 / 10, 100, 6, false, false⟩ sol L) (kindOf false) o := by
  show pureLocal _ (positionPts _ o) o.center o.center o.r200 1 = pureLocal _ (positionPts _ o) o.center o.center o.r200 1
  unfold pureLocal
  have h1 : positionPts (Katz.settings ⟨[1], 1 / 10, 100, 6, false, true⟩ sol L) o =
    positionPts (Katz.settings ⟨[1], 1 / 10, 100, 6, false, false⟩ sol L) o := rfl
  rw [h1]
  split_ifs
  · rfl
  · rfl
  · unfold pureLoop
    have h2 : List.range 1 = [0] := rfl
    have h3 : shellAt (Katz.settings ⟨[1], 1 / 10, 100, 6, false, true⟩ sol L) o.r200 0 = (o.r200 * 1, some (o.r200 * 1)) := rfl
    have h4 : shellAt (Katz.settings ⟨[1], 1 / 10, 100, 6, false, false⟩ sol L) o.r200 0 = (o.r200 * 1, none) := rfl
    rw [h2]
    simp only [List.map_cons, List.map_nil, h3, h4, List.mapM_cons, List.mapM_nil]
    have := pureOne_innermost ((Katz.settings ⟨[1], 1 / 10, 100, 6, false, false⟩ sol L).config
      (positionPts (Katz.settings ⟨[1], 1 / 10, 100, 6, false, false⟩ sol L) o) o.center o.center (o.r200 * 1) none) { Morph.zero with d := o.r200 * 1 }
    simp only [Settings.config] at this ⊢
    exact congrArg (fun x => x.bind fun m => some [m]) this

/-- No iteration succeeds if there are not enough particles at the beginning. -/
theorem reached_few {cfg : Config} (hfew : ¬ cfg.itMin ≤ ((members cfg sphere).length : Int))
    {n : Nat} {e : Shapes.Ellipsoid} (h : Reached cfg n e) : ¬ cfg.itMin ≤ ((members cfg e).length : Int) := by
  induction h with
  | sphere => exact hfew
  | step h enough axes unsettled ih => exact absurd enough ih

/-- The shape of a shell depends on the radius before: the cross has a shape at R200 if this is the only radius, and none if 0.015 R200 is asked for as
well. -/
theorem C188_shells_refuted (h : ℝ) (hh : 0 < h) (sol : Solver) (hsol : GoodSolver sol)
    (choose : Nat → List Nat) (hch : ∀ n, 0 < n → ∃ j ∈ choose n, j < n) (limit : Nat) (o : Obj)
    (ho : construct ⟨mpch h, msunh10 h, 1, h, mpch h, msunh10 h, 1⟩ ⟨crossXyz, [1, 1, 1, 1, 1, 1],
      .nested [[0, 1, 2, 3, 4, 5]], .array [100], 20, 6, .com⟩ = .ok o)
    (out out' : Except ShapeErr (List (List ShapeEntry)))
    (hrun : GetShapeCat ⟨mpch h, msunh10 h, 1, h, mpch h, msunh10 h, 1⟩ sol choose limit o
      ⟨[1], 1 / 10, 100, 6, false, true⟩ false [0] out)
    (hrun' : GetShapeCat ⟨mpch h, msunh10 h, 1, h, mpch h, msunh10 h, 1⟩ sol choose limit o
      ⟨[3 / 200, 1], 1 / 10, 100, 6, false, true⟩ false [0] out') :
    ∃ e e0 e1 : ShapeEntry, out = .ok [[e]] ∧ out' = .ok [[e0, e1]] ∧ e.conv = true ∧ e1.conv = false := by
  have hl := mpch_pos hh
  have hms := msunh10_pos hh
  have hcfg : (⟨mpch h, msunh10 h, 1, h, mpch h, msunh10 h, 1⟩ : Cfg ℝ).Pos := ⟨hl, hms, one_pos, hh, hl, hms, one_pos⟩
  have hres : resolved 6 [([0, 1, 2, 3, 4, 5], (100 : ℝ))] = [([0, 1, 2, 3, 4, 5], 100)] := by simp [resolved]
  have hob : (resolved 6 [([0, 1, 2, 3, 4, 5], (100 : ℝ))])[(0 : Int).toNat]? = some ([0, 1, 2, 3, 4, 5], 100) := by rw [hres]; rfl
  have hsel : GoodSelection [0] (resolved 6 [([0, 1, 2, 3, 4, 5], (100 : ℝ))]).length := by
    rw [hres]
    exact ⟨by simp, by simp, by simp⟩
  obtain ⟨-, -, hps, hnc, hmean, -⟩ := cross_facts
  -- the first call
  obtain ⟨out₀, hrun₀⟩ := C106_outcome_exists _ (⟨mpch h, msunh10 h, 1, h, mpch h, msunh10 h, 1⟩ : Cfg ℝ) crossXyz [1, 1, 1, 1, 1, 1] 20
    [([0, 1, 2, 3, 4, 5], 100)] 6 (by norm_num) .com cross_sensible sol choose limit o ho ⟨[1], 1 / 10, 100, 6, false, false⟩ false [0] hsel
  obtain ⟨e₀, rfl, hc₀, -⟩ := C106_cross 20 le_rfl h hh sol hsol choose hch limit o ho out₀ hrun₀
  obtain ⟨res, rfl⟩ : ∃ res, out = .ok res := by
    rcases shape_rows _ _ crossXyz [1, 1, 1, 1, 1, 1] 20 [([0, 1, 2, 3, 4, 5], 100)] 6 (by norm_num) .com cross_sensible sol choose limit o ho _ false
      [0] hsel _ hrun with ⟨-, h1⟩ | ⟨rows, hlen, hout, hrows⟩
    · cases h1
    rcases shape_rows _ _ crossXyz [1, 1, 1, 1, 1, 1] 20 [([0, 1, 2, 3, 4, 5], 100)] 6 (by norm_num) .com cross_sensible sol choose limit o ho _ false
      [0] hsel _ hrun₀ with ⟨-, h1⟩ | ⟨rows₀, -, hout₀, hrows₀⟩
    · cases h1
    obtain ⟨-, v, hv, hR⟩ := hrows 0 0 _ rfl hob
    obtain ⟨-, v₀, hv₀, hR₀⟩ := hrows₀ 0 0 _ rfl hob
    rw [hv] at hv₀
    obtain rfl := Option.some.inj hv₀
    rcases hout with ⟨rfl, k, hk⟩ | ⟨res, h1, -⟩
    · exfalso
      have : k = 0 := by
        have := (List.getElem?_eq_some_iff.1 hk).1
        simp only [hlen, List.length_singleton] at this
        omega
      subst this
      rcases hout₀ with ⟨h1, -⟩ | ⟨res₀, -, -, hres₀⟩
      · cases h1
      obtain ⟨ms, hms₀, -⟩ := hres₀ 0 _ hR₀
      rw [hk] at hR
      have hnone := Option.some.inj hR
      rw [aloneShapes_shell] at hnone
      rw [← hnone] at hms₀
      cases hms₀
    · exact ⟨res, h1⟩
  have hone : ∃ e, res = [[e]] ∧ e.conv = true := by
    rcases C106_shapes_partial _ _ hcfg hcfg rfl crossXyz [1, 1, 1, 1, 1, 1] 20 [([0, 1, 2, 3, 4, 5], 100)] 6 (by norm_num) .com cross_sensible
      (by simp) sol hsol choose hch limit o ho _ (by norm_num) (by simp) false [0] hsel _ hrun with ⟨h1, -⟩ | ⟨h1, -⟩ | ⟨res1, h1, hlen, hall⟩
    · cases h1
    · cases h1
    obtain rfl := Except.ok.inj h1
    obtain ⟨row, hrow, hlen', -⟩ := hall 0 0 _ rfl hob
    have hlen'' : row.length = 1 := hlen'
    match res, hlen, hrow with
    | [row'], _, hrow =>
      obtain rfl := Option.some.inj hrow
      match row', hlen'', hrun with
      | [e], _, hrun =>
        refine ⟨e, rfl, ?_⟩
        rw [C188_first_shell _ _ hcfg crossXyz [1, 1, 1, 1, 1, 1] 20 [([0, 1, 2, 3, 4, 5], 100)] 6 (by norm_num) .com cross_sensible sol choose limit o
          ho ⟨[1], 1 / 10, 100, 6, false, false⟩ [1] [0] [0] hsel hsel _ _ hrun hrun₀ 0 rfl 0 0 0 rfl rfl _ hob (by norm_num) _ _ rfl rfl e e₀ rfl rfl]
        exact hc₀
  obtain ⟨e, rfl, hconv⟩ := hone
  -- the second call
  set katz : Katz := ⟨[3 / 200, 1], 1 / 10, 100, 6, false, true⟩ with hkatz
  have hvol0 : ∀ m, wantedVolume katz false 100 m 0 = (3 / 2, some (3 / 2)) := by
    intro m
    simp [wantedVolume, hkatz]
    norm_num
  have hvol1 : ∀ m, wantedVolume katz false 100 m 1 = (100, some (197 / 2)) := by
    intro m
    simp [wantedVolume, hkatz]
    norm_num
  have few : ∀ (m : ℝ) (b : Nat), b < 2 → ¬ katz.itMin ≤ ((members (task katz sol (particlesOf crossXyz [1, 1, 1, 1, 1, 1] [0, 1, 2, 3, 4, 5]) ![5, 5, 5]
      (wantedVolume katz false 100 m b)) sphere).length : Int) := by
    intro m b hb
    have hlt : (members (task katz sol (particlesOf crossXyz [1, 1, 1, 1, 1, 1] [0, 1, 2, 3, 4, 5]) ![5, 5, 5]
        (wantedVolume katz false 100 m b)) sphere).length < 6 := by
      classical
      unfold members
      have h6 : (task katz sol (particlesOf crossXyz [1, 1, 1, 1, 1, 1] [0, 1, 2, 3, 4, 5]) ![5, 5, 5] (wantedVolume katz false 100 m b)).pts.length = 6 := by
        rw [hps]; rfl
      rw [← h6, List.length_filter_lt_length_iff_exists]
      interval_cases b
      · refine ⟨⟨![8, 5, 5], ![8, 5, 5], 1⟩, by rw [hps]; simp [task], ?_⟩
        rw [decide_eq_true_eq, hvol0]
        rintro ⟨h1, -⟩
        simp [ellipsoidal2, sphere, dot, rel, task] at h1
        norm_num at h1
      · refine ⟨⟨![5, 5, 6], ![5, 5, 6], 1⟩, by rw [hps]; simp [task], ?_⟩
        rw [decide_eq_true_eq, hvol1]
        rintro ⟨-, h1⟩
        have := h1 (197 / 2) rfl (by simp [task]; norm_num)
        simp [sphere, dot, rel, task] at this
        norm_num at this
    show ¬ (6 : Int) ≤ _
    omega
  rcases C106_shapes_partial _ _ hcfg hcfg rfl crossXyz [1, 1, 1, 1, 1, 1] 20 [([0, 1, 2, 3, 4, 5], 100)] 6 (by norm_num) .com cross_sensible
      (by simp) sol hsol choose hch limit o ho katz (by norm_num [hkatz]) (by simp [hkatz]) false [0] hsel _ hrun' with
    ⟨-, h1⟩ | ⟨-, k, z, obj, hk, hobj, hdeg⟩ | ⟨res1, rfl, hlen, hall⟩
  · cases h1
  · exfalso
    have hz : z = 0 := by simpa using List.mem_of_getElem? hk
    subst hz
    rw [hob] at hobj
    obtain rfl := Option.some.inj hobj
    obtain ⟨sub, -, -, hsub, b, hb, n, e1, hre, -, hen, -⟩ := hdeg hnc
    rw [hsub rfl, hmean] at hre hen
    exact reached_few (few _ b hb) hre hen
  · obtain ⟨row, hrow, hlen', hans⟩ := hall 0 0 _ rfl hob
    obtain ⟨sub, -, -, hsub, hans⟩ := hans hnc
    match res1, hlen, hrow with
    | [row'], _, hrow =>
      obtain rfl := Option.some.inj hrow
      have hlen'' : row'.length = 2 := hlen'
      match row', hlen'', hans with
      | [e0, e1], _, hans =>
        refine ⟨e, e0, e1, rfl, rfl, hconv, ?_⟩
        have := hans 1 e1 rfl
        rw [hsub rfl, hmean] at this
        rcases this with ⟨h1, -⟩ | ⟨m, d, ⟨n, e2, e3, hre, -, hen, -⟩, -⟩
        · exact h1
        · exact absurd hen (reached_few (few _ 1 (by norm_num)) hre)

end Verif.Api
