import Verif.Api.Whole

/-!
# Global shapes and local shapes (C187)
-/

namespace Verif.Api

open Verif.Units Verif.Catalogue Verif.Periodic Verif.Par Verif.Shapes

/-! ## Specification -/

/-- Settings which differ at most in the radii, and use full ellipsoids instead of shells. -/
structure SameIteration (katz katz' : Katz) : Prop where
  tol : katz.tol = katz'.tol
  wall : katz.wall = katz'.wall
  itMin : katz.itMin = katz'.itMin
  reduced : katz.reduced = katz'.reduced
  full : katz.shellBased = false

/-! ## C187 -/

/-- Column `b` of one object on its own. -/
theorem aloneShapes_column (st : Settings) (whole : Bool) (o : ObjData) (hr : o.r200 ≠ 0) (ms : List Morph)
    (h : aloneShapes st (kindOf whole) o = some ms) (b : Nat) (m : Morph) (hb : ms[b]? = some m) :
    some m = if localSpread (positionPts st o) = 0 then some .zero
      else pureOne (st.config (positionPts st o) o.center o.center (volumeAt st whole o.r200 b).1 (volumeAt st whole o.r200 b).2)
        { Morph.zero with d := (volumeAt st whole o.r200 b).1 } := by
  set n := columns st (kindOf whole) with hn
  have hform : aloneShapes st (kindOf whole) o =
      if localSpread (positionPts st o) = 0 then some (List.replicate n .zero)
      else pureLoop st (positionPts st o) o.center o.center ((List.range n).map fun k =>
        (volumeAt st whole o.r200 k, { Morph.zero with d := (volumeAt st whole o.r200 k).1 })) := by
    cases whole with
    | false =>
      show pureLocal st (positionPts st o) o.center o.center o.r200 st.radii.length = _
      unfold pureLocal
      rw [if_neg hr]
      rfl
    | true =>
      show pureGlobal st (positionPts st o) o.center o.center o.r200 1 = _
      rfl
  rw [hform] at h
  by_cases hsp : localSpread (positionPts st o) = 0
  · rw [if_pos hsp] at h ⊢
    obtain rfl := Option.some.inj h
    rw [List.eq_of_mem_replicate (List.mem_of_getElem? hb)]
  · rw [if_neg hsp] at h ⊢
    unfold pureLoop at h
    obtain ⟨hlen, hget⟩ := mapM_some_get _ _ _ h
    have hlt : b < n := by
      have := (List.getElem?_eq_some_iff.1 hb).1
      rw [hlen] at this; simpa using this
    obtain ⟨m', hm', hone⟩ := hget b (volumeAt st whole o.r200 b,
      { Morph.zero with d := (volumeAt st whole o.r200 b).1 }) (by
        rw [List.getElem?_map, List.getElem?_range hlt]; rfl)
    rw [hb] at hm'
    rw [hm']
    exact hone.symm

/-- C187: the entry of getShapeCatGlobal for an object is the entry of getShapeCatLocal at the radius R200 + 6 Mpc/h, whatever the
other objects and radii of the two calls are, whether or not the object crosses a face of the box, and for both kinds of centres. -/
theorem C187_margin_partial (c c' : Cfg ℝ) (hc : c.Pos)
    (xyz : List (Vec ℝ)) (masses : List ℝ) (box : ℝ) (objs : List (List Nat × ℝ)) (minPtcs : Int)
    (hmin : 1 ≤ minPtcs) (center : Center) (hs : Sensible xyz masses box objs) (sol : Solver)
    (choose : Nat → List Nat) (limit : Nat) (o : Obj)
    (ho : construct c ⟨xyz, masses, .nested (objs.map Prod.fst), .array (objs.map Prod.snd), box,
      minPtcs, center⟩ = .ok o)
    (katz katz' : Katz) (hkatz : SameIteration katz katz')
    (sel sel' : List Int) (hsel : GoodSelection sel (resolved minPtcs objs).length)
    (hsel' : GoodSelection sel' (resolved minPtcs objs).length)
    (res res' : List (List ShapeEntry))
    (hrun : GetShapeCat c' sol choose limit o katz false sel (.ok res))
    (hrun' : GetShapeCat c' sol choose limit o katz' true sel' (.ok res'))
    (k k' : Nat) (w : Int) (hk : sel[k]? = some w) (hk' : sel'[k']? = some w)
    (obj : List Nat × ℝ) (hobj : (resolved minPtcs objs)[w.toNat]? = some obj) (hr : 0 < obj.2)
    (b : Nat) (r : ℝ) (hb : katz.radii[b]? = some r) (hrad : r * obj.2 = obj.2 + 6 * mpch c.h / c.inL)
    (row row' : List ShapeEntry) (hrow : res[k]? = some row) (hrow' : res'[k']? = some row')
    (e e' : ShapeEntry) (he : row[b]? = some e) (he' : row'[0]? = some e') :
    e = e' := by
  have hl : 0 < c.inL / mpch c.h := div_pos hc.inL (mpch_pos hc.h)
  set f := c.inL / mpch c.h with hf
  have hr0 : obj.2 * f ≠ 0 := (mul_pos hr hl).ne'
  rcases shape_rows c c' xyz masses box objs minPtcs hmin center hs sol choose limit o ho katz false sel hsel _ hrun with
    ⟨h, -⟩ | ⟨rows, -, hout, hrows⟩
  · cases h
  rcases shape_rows c c' xyz masses box objs minPtcs hmin center hs sol choose limit o ho katz' true sel' hsel' _ hrun' with
    ⟨h, -⟩ | ⟨rows', -, hout', hrows'⟩
  · cases h
  obtain ⟨-, v, hv, hR⟩ := hrows k w obj hk hobj
  obtain ⟨-, v', hv', hR'⟩ := hrows' k' w obj hk' hobj
  rw [hv] at hv'
  obtain rfl := Option.some.inj hv'
  rcases hout with ⟨h, -⟩ | ⟨res1, h, -, hres⟩
  · cases h
  obtain rfl := Except.ok.inj h
  rcases hout' with ⟨h, -⟩ | ⟨res1', h, -, hres'⟩
  · cases h
  obtain rfl := Except.ok.inj h
  obtain ⟨ms, hms, h1⟩ := hres k _ hR
  obtain ⟨ms', hms', h1'⟩ := hres' k' _ hR'
  rw [hrow] at h1
  rw [hrow'] at h1'
  obtain rfl := Option.some.inj h1
  obtain rfl := Option.some.inj h1'
  rw [List.getElem?_map] at he he'
  obtain ⟨m, hm, rfl⟩ := Option.map_eq_some_iff.1 he
  obtain ⟨m', hm', rfl⟩ := Option.map_eq_some_iff.1 he'
  have hcol := aloneShapes_column _ false _ hr0 ms hms b m hm
  have hcol' := aloneShapes_column _ true _ hr0 ms' hms' 0 m' hm'
  have hvol : volumeAt (katz.settings sol (box * f)) false (obj.2 * f) b = (obj.2 * f + 6, none) := by
    unfold volumeAt shellAt
    simp only [Katz.settings, hkatz.full, hb, Option.getD_some, Bool.false_eq_true, if_false]
    congr 1
    have : obj.2 * f * r = (obj.2 + 6 * mpch c.h / c.inL) * f := by rw [← hrad]; ring
    rw [this, hf]
    have := (mpch_pos hc.h).ne'
    have := hc.inL.ne'
    field_simp
  have hvol' : volumeAt (katz'.settings sol (box * f)) true (obj.2 * f) 0 = (obj.2 * f + 6, none) := rfl
  have hmm : some m = some m' := by
    rw [hcol, hcol', hvol, hvol']
    simp only [Katz.settings, Settings.config, hkatz.tol, hkatz.wall, hkatz.itMin, hkatz.reduced]
    rfl
  rw [Option.some.inj hmm]

/-! ## The margin matters -/

/-- No iteration succeeds if no particle is within the sphere. -/
theorem reached_empty {cfg : Config} (hmem : ∀ p ∈ cfg.pts, cfg.d ^ 2 ≤ dot (rel cfg p) (rel cfg p)) (hmin : 1 ≤ cfg.itMin)
    {n : Nat} {e : Shapes.Ellipsoid} (h : Reached cfg n e) : n = 0 ∧ ¬ cfg.itMin ≤ ((members cfg e).length : Int) := by
  classical
  have hs : members cfg sphere = [] := by
    unfold members
    rw [List.filter_eq_nil_iff]
    intro p hp hd
    have h1 := (of_decide_eq_true hd).1
    have h2 := hmem p hp
    have h3 : ellipsoidal2 sphere.major sphere.inter sphere.minor sphere.q sphere.s (rel cfg p) = dot (rel cfg p) (rel cfg p) := by
      simp [ellipsoidal2, sphere, dot]
      ring
    rw [h3] at h1
    linarith
  induction h with
  | sphere =>
    refine ⟨rfl, ?_⟩
    rw [hs]
    simp only [List.length_nil, Nat.cast_zero]
    omega
  | step h enough axes unsettled ih => exact absurd enough ih.2

/-- The cross of C106 as an object with R200 = 1/2. -/
theorem cross_facts : Sensible crossXyz [1, 1, 1, 1, 1, 1] 20 [([0, 1, 2, 3, 4, 5], 1 / 2)] ∧
    resolved 6 [([0, 1, 2, 3, 4, 5], (1 / 2 : ℝ))] = [([0, 1, 2, 3, 4, 5], 1 / 2)] ∧
    particlesOf crossXyz [1, 1, 1, 1, 1, 1] [0, 1, 2, 3, 4, 5] =
      [⟨![8, 5, 5], 1⟩, ⟨![2, 5, 5], 1⟩, ⟨![5, 7, 5], 1⟩, ⟨![5, 3, 5], 1⟩, ⟨![5, 5, 6], 1⟩, ⟨![5, 5, 4], 1⟩] ∧
    NotCrossing 20 (particlesOf crossXyz [1, 1, 1, 1, 1, 1] [0, 1, 2, 3, 4, 5]) ∧
    weightedMean (particlesOf crossXyz [1, 1, 1, 1, 1, 1] [0, 1, 2, 3, 4, 5]) = ![5, 5, 5] ∧
    WellInside (121 / 2) (particlesOf crossXyz [1, 1, 1, 1, 1, 1] [0, 1, 2, 3, 4, 5])
      (√3) (2 / 3 * √3) (1 / 3 * √3) ![1, 0, 0] ![0, 1, 0] ![0, 0, 1] := by
  have hs : Sensible crossXyz [1, 1, 1, 1, 1, 1] 20 [([0, 1, 2, 3, 4, 5], 1 / 2)] := by
    refine ⟨rfl, by norm_num, ?_, ?_, by simp, ?_⟩
    · intro x hx a
      simp only [crossXyz, List.mem_cons, List.not_mem_nil, or_false] at hx
      rcases hx with rfl | rfl | rfl | rfl | rfl | rfl <;> fin_cases a <;> norm_num
    · intro m hm
      simp only [List.mem_cons, List.not_mem_nil, or_false, or_self] at hm
      rw [hm]; norm_num
    · intro o ho i hi
      simp only [List.mem_singleton] at ho
      subst ho
      simp only [List.mem_cons, List.not_mem_nil, or_false] at hi
      simp only [crossXyz, List.length_cons, List.length_nil]
      omega
  have hres : resolved 6 [([0, 1, 2, 3, 4, 5], (1 / 2 : ℝ))] = [([0, 1, 2, 3, 4, 5], 1 / 2)] := by
    simp [resolved]
  have hps : particlesOf crossXyz [1, 1, 1, 1, 1, 1] [0, 1, 2, 3, 4, 5] =
      [⟨![8, 5, 5], 1⟩, ⟨![2, 5, 5], 1⟩, ⟨![5, 7, 5], 1⟩, ⟨![5, 3, 5], 1⟩, ⟨![5, 5, 6], 1⟩,
        ⟨![5, 5, 4], 1⟩] := by
    simp [particlesOf, crossXyz]
  have hnc : NotCrossing 20 (particlesOf crossXyz [1, 1, 1, 1, 1, 1] [0, 1, 2, 3, 4, 5]) := by
    rw [hps]
    intro p hp q hq a
    have hb : ∀ p ∈ ([⟨![8, 5, 5], 1⟩, ⟨![2, 5, 5], 1⟩, ⟨![5, 7, 5], 1⟩, ⟨![5, 3, 5], 1⟩,
        ⟨![5, 5, 6], 1⟩, ⟨![5, 5, 4], 1⟩] : List (Particle ℝ)), ∀ a, 2 ≤ p.pos a ∧ p.pos a ≤ 8 := by
      intro p hp a
      simp only [List.mem_cons, List.not_mem_nil, or_false] at hp
      rcases hp with rfl | rfl | rfl | rfl | rfl | rfl <;> fin_cases a <;> norm_num
    have h1 := hb p hp a
    have h2 := hb q hq a
    rw [abs_le]
    constructor <;> linarith
  have hmean : weightedMean (particlesOf crossXyz [1, 1, 1, 1, 1, 1] [0, 1, 2, 3, 4, 5]) = ![5, 5, 5] := by
    rw [hps]
    funext i
    fin_cases i <;> simp [weightedMean, totalMass] <;> norm_num
  have hwell : WellInside (121 / 2) (particlesOf crossXyz [1, 1, 1, 1, 1, 1] [0, 1, 2, 3, 4, 5])
      (√3) (2 / 3 * √3) (1 / 3 * √3) ![1, 0, 0] ![0, 1, 0] ![0, 0, 1] := by
    have h3 : √3 ^ 2 = 3 := Real.sq_sqrt (by norm_num)
    have hp : 0 < √3 := Real.sqrt_pos.2 (by norm_num)
    refine ⟨?_, ?_⟩
    · rw [hmean, hps]
      refine ⟨by positivity, by linarith, by linarith, ?_, ?_, ?_, ?_⟩
      · simp [Shapes.Orthonormal, dot]
      · intro i
        fin_cases i <;> simp [spreadAbout] <;> norm_num
      · intro i
        rw [mul_pow, h3]
        fin_cases i <;> simp [spreadAbout] <;> norm_num
      · intro i
        rw [mul_pow, h3]
        fin_cases i <;> simp [spreadAbout] <;> norm_num
    · rw [hmean, hps]
      have hr : 1 / 3 * √3 / √3 * (121 / 2) = 121 / 6 := by field_simp; norm_num
      rw [hr]
      intro p hp
      simp only [List.mem_cons, List.not_mem_nil, or_false] at hp
      unfold Periodic.dist
      rw [Real.sqrt_lt' (by norm_num)]
      rcases hp with rfl | rfl | rfl | rfl | rfl | rfl <;> simp <;> norm_num
  exact ⟨hs, hres, hps, hnc, hmean, hwell⟩

/-- Ten units of length are 1 Mpc/h. -/
noncomputable def tenths (h : ℝ) : Cfg ℝ := ⟨mpch h / 10, msunh10 h, 1, h, mpch h / 10, msunh10 h, 1⟩

/-- The global shape is not the shape at R200: a cross all particles of which are beyond R200 has no local shape at R200, but a
global shape, which is that of these particles. -/
theorem C187_r200_refuted (h : ℝ) (hh : 0 < h) (sol : Solver) (hsol : GoodSolver sol)
    (choose : Nat → List Nat) (hch : ∀ n, 0 < n → ∃ j ∈ choose n, j < n) (limit : Nat) (o : Obj)
    (ho : construct (tenths h) ⟨crossXyz, [1, 1, 1, 1, 1, 1],
      .nested [[0, 1, 2, 3, 4, 5]], .array [1 / 2], 20, 6, .com⟩ = .ok o)
    (out out' : Except ShapeErr (List (List ShapeEntry)))
    (hrun : GetShapeCat (tenths h) sol choose limit o ⟨[1], 1 / 10, 100, 6, false, false⟩ false [0] out)
    (hrun' : GetShapeCat (tenths h) sol choose limit o ⟨[1], 1 / 10, 100, 6, false, false⟩ true [0] out') :
    ∃ e e' : ShapeEntry, out = .ok [[e]] ∧ out' = .ok [[e']] ∧ e.conv = false ∧ e'.conv = true ∧
      e'.q = some (2 / 3) ∧ e'.s = some (1 / 3) := by
  have hl := mpch_pos hh
  have hms := msunh10_pos hh
  have hc : (tenths h).Pos := by
    refine ⟨?_, ?_, ?_, ?_, ?_, ?_, ?_⟩ <;> simp only [tenths] <;> first | positivity | norm_num
  obtain ⟨hs, hres, hps, hnc, hmean, hwell⟩ := cross_facts
  have hsel : GoodSelection [0] (resolved 6 [([0, 1, 2, 3, 4, 5], (1 / 2 : ℝ))]).length := by
    rw [hres]
    exact ⟨by simp, by simp, by simp⟩
  have hr200 : ∀ o ∈ [([0, 1, 2, 3, 4, 5], (1 / 2 : ℝ))], 0 < o.2 := by simp
  set katz : Katz := ⟨[1], 1 / 10, 100, 6, false, false⟩ with hkatz
  have hradii : ∀ r ∈ katz.radii, 0 < r := by simp [hkatz]
  have htol : katz.tol < 1 := by norm_num [hkatz]
  have hob : (resolved 6 [([0, 1, 2, 3, 4, 5], (1 / 2 : ℝ))])[(0 : Int).toNat]? = some ([0, 1, 2, 3, 4, 5], 1 / 2) := by
    rw [hres]; rfl
  -- no particle is within R200
  have hfar : ∀ p ∈ (task katz sol (particlesOf crossXyz [1, 1, 1, 1, 1, 1] [0, 1, 2, 3, 4, 5]) ![5, 5, 5] (1 / 2, none)).pts,
      (1 / 2 : ℝ) ^ 2 ≤ dot (rel (task katz sol (particlesOf crossXyz [1, 1, 1, 1, 1, 1] [0, 1, 2, 3, 4, 5]) ![5, 5, 5] (1 / 2, none)) p)
        (rel (task katz sol (particlesOf crossXyz [1, 1, 1, 1, 1, 1] [0, 1, 2, 3, 4, 5]) ![5, 5, 5] (1 / 2, none)) p) := by
    rw [hps]
    intro p hp
    simp only [task, List.map_cons, List.map_nil, List.mem_cons, List.not_mem_nil, or_false] at hp
    rcases hp with rfl | rfl | rfl | rfl | rfl | rfl <;> simp [rel, task, dot] <;> norm_num
  have hvol : ∀ b, b < 1 → wantedVolume katz false (1 / 2) (6 * mpch (tenths h).h / (tenths h).inL) b = (1 / 2, none) := by
    intro b hb
    have : b = 0 := by omega
    subst this
    simp [wantedVolume, hkatz]
  have hD : (wantedVolume katz true (1 / 2) (6 * mpch (tenths h).h / (tenths h).inL) 0).1 = 121 / 2 := by
    simp only [wantedVolume, if_true, tenths]
    field_simp
    norm_num
  -- the local shape
  have hloc : ∃ e : ShapeEntry, out = .ok [[e]] ∧ e.conv = false := by
    rcases C106_shapes_partial (tenths h) (tenths h) hc hc rfl crossXyz [1, 1, 1, 1, 1, 1] 20 [([0, 1, 2, 3, 4, 5], 1 / 2)] 6 (by norm_num) .com hs
      hr200 sol hsol choose hch limit o ho katz htol hradii false [0] hsel out hrun with ⟨-, h1⟩ | ⟨-, k, z, obj, hk, hobj, hdeg⟩ | ⟨res, rfl, hlen, hall⟩
    · cases h1
    · exfalso
      have hz : z = 0 := by simpa using List.mem_of_getElem? hk
      subst hz
      rw [hob] at hobj
      obtain rfl := Option.some.inj hobj
      obtain ⟨sub, -, -, hsub, b, hb, hd⟩ := hdeg hnc
      rw [hsub rfl, hmean, hvol b (by simpa [wantedColumns, hkatz] using hb)] at hd
      obtain ⟨n, e, hre, -, hen, -⟩ := hd
      exact (reached_empty hfar (by simp [task, hkatz]) hre).2 hen
    · obtain ⟨row, hrow, hlen', hans⟩ := hall 0 0 _ rfl hob
      obtain ⟨sub, -, -, hsub, hans⟩ := hans hnc
      match res, hlen, hrow with
      | [row'], _, hrow =>
        obtain rfl := Option.some.inj hrow
        have hlen'' : row'.length = 1 := hlen'
        match row', hlen'', hans with
        | [e], _, hans =>
          refine ⟨e, rfl, ?_⟩
          have := hans 0 e rfl
          rw [hsub rfl, hmean, hvol 0 (by norm_num)] at this
          rcases this with ⟨h1, -⟩ | ⟨m, d, ⟨n, e1, e2, hre, -, hen, -⟩, -⟩
          · exact h1
          · exact absurd hen (reached_empty hfar (by simp [task, hkatz]) hre).2
  -- the global shape
  obtain ⟨e, he, hconv⟩ := hloc
  obtain ⟨res', rfl, hlen⟩ := C160_returns (tenths h) (tenths h) hc hc rfl crossXyz [1, 1, 1, 1, 1, 1] 20 [([0, 1, 2, 3, 4, 5], 1 / 2)] 6
    (by norm_num) hs hr200 sol hsol choose hch limit o ho katz (by norm_num [hkatz]) htol rfl hradii true (.inl rfl) [0] hsel (by
      intro w hw obj hobj
      have hz : w = 0 := by simpa using hw
      subst hz
      rw [hob] at hobj
      obtain rfl := Option.some.inj hobj
      refine ⟨hnc, fun n hn => ?_⟩
      have : n = 0 := by simpa [wantedColumns] using hn
      subst this
      rw [hD]
      exact ⟨_, _, _, _, _, _, hwell⟩) out' hrun'
  rcases C106_shapes_partial (tenths h) (tenths h) hc hc rfl crossXyz [1, 1, 1, 1, 1, 1] 20 [([0, 1, 2, 3, 4, 5], 1 / 2)] 6 (by norm_num) .com hs
      hr200 sol hsol choose hch limit o ho katz htol hradii true [0] hsel _ hrun' with ⟨h1, -⟩ | ⟨h1, -⟩ | ⟨res1, h1, -, hall⟩
  · cases h1
  · cases h1
  obtain rfl := Except.ok.inj h1
  obtain ⟨row, hrow, hlen', -⟩ := hall 0 0 _ rfl hob
  match res', hlen, hrow with
  | [row'], _, hrow =>
    obtain rfl := Option.some.inj hrow
    have hlen'' : row'.length = 1 := hlen'
    match row', hlen'', hrun' with
    | [e'], _, hrun' =>
      have hp : 0 < √3 := Real.sqrt_pos.2 (by norm_num)
      obtain ⟨h1, h2, h3, -⟩ := C160_whole (tenths h) (tenths h) hc hc rfl crossXyz [1, 1, 1, 1, 1, 1] 20 [([0, 1, 2, 3, 4, 5], 1 / 2)] 6
        (by norm_num) hs hr200 sol hsol choose hch limit o ho katz (by norm_num [hkatz]) htol (by simp [hkatz]) rfl hradii true (.inl rfl) [0] hsel
        _ hrun' 0 0 _ rfl hob hnc (by rw [hps]; simp [hkatz]) _ rfl 0 e' rfl _ _ _ _ _ _ (by rw [hD]; exact hwell)
      refine ⟨e, e', he, rfl, hconv, h1, ?_, ?_⟩
      · rw [h2]; congr 1; field_simp
      · rw [h3]; congr 1; field_simp

/-- Calls as in `C187_margin_partial` return: the cross at radius 121 R200, and as a whole. -/
example (h : ℝ) (hh : 0 < h) (sol : Solver) (hsol : GoodSolver sol) :
    SameIteration ⟨[121], 1 / 10, 100, 6, false, false⟩ ⟨[1], 1 / 10, 100, 6, false, true⟩ ∧
    (121 : ℝ) * (1 / 2) = 1 / 2 + 6 * mpch (tenths h).h / (tenths h).inL ∧
    ∃ o, construct (tenths h) ⟨crossXyz, [1, 1, 1, 1, 1, 1], .nested [[0, 1, 2, 3, 4, 5]], .array [1 / 2], 20, 6, .com⟩ = .ok o ∧
    ∀ whole, ∃ res, GetShapeCat (tenths h) sol (fun _ => [0]) 100 o
      ⟨[if whole then 1 else 121], 1 / 10, 100, 6, false, whole⟩ whole [0] (.ok res) ∧ res.length = 1 := by
  have hl := mpch_pos hh
  have hms := msunh10_pos hh
  have hc : (tenths h).Pos := by
    refine ⟨?_, ?_, ?_, ?_, ?_, ?_, ?_⟩ <;> simp only [tenths] <;> first | positivity | norm_num
  obtain ⟨hs, hres, hps, hnc, hmean, hwell⟩ := cross_facts
  have hq : (121 : ℝ) * (1 / 2) = 1 / 2 + 6 * mpch (tenths h).h / (tenths h).inL := by
    simp only [tenths]
    field_simp
    norm_num
  have hsel : GoodSelection [0] (resolved 6 [([0, 1, 2, 3, 4, 5], (1 / 2 : ℝ))]).length := by
    rw [hres]
    exact ⟨by simp, by simp, by simp⟩
  have hr200 : ∀ o ∈ [([0, 1, 2, 3, 4, 5], (1 / 2 : ℝ))], 0 < o.2 := by simp
  refine ⟨⟨rfl, rfl, rfl, rfl, rfl⟩, hq, _, construct_eq (tenths h) crossXyz _ 20 [([0, 1, 2, 3, 4, 5], 1 / 2)] 6 .com hs.lengths hs.objects, ?_⟩
  intro whole
  obtain ⟨out, hout⟩ := C106_outcome_exists (tenths h) (tenths h) crossXyz _ 20 [([0, 1, 2, 3, 4, 5], 1 / 2)] 6 (by norm_num) .com hs sol
    (fun _ => [0]) 100 _ (construct_eq (tenths h) crossXyz _ 20 [([0, 1, 2, 3, 4, 5], 1 / 2)] 6 .com hs.lengths hs.objects)
    ⟨[if whole then 1 else 121], 1 / 10, 100, 6, false, whole⟩ whole [0] hsel
  obtain ⟨res, rfl, hlen⟩ := C160_returns (tenths h) (tenths h) hc hc rfl crossXyz [1, 1, 1, 1, 1, 1] 20 [([0, 1, 2, 3, 4, 5], 1 / 2)] 6
    (by norm_num) hs hr200 sol hsol (fun _ => [0]) (fun n hn => ⟨0, by simp, hn⟩) 100 _
    (construct_eq (tenths h) crossXyz _ 20 [([0, 1, 2, 3, 4, 5], 1 / 2)] 6 .com hs.lengths hs.objects)
    ⟨[if whole then 1 else 121], 1 / 10, 100, 6, false, whole⟩ (by norm_num) (by norm_num) rfl
    (by cases whole <;> simp) whole (by cases whole <;> simp) [0] hsel (by
      intro w hw obj hobj
      have hz : w = 0 := by simpa using hw
      subst hz
      rw [hres] at hobj
      obtain rfl := Option.some.inj hobj
      refine ⟨hnc, fun n hn => ?_⟩
      have : n = 0 := by cases whole <;> simpa [wantedColumns] using hn
      subst this
      have hD : (wantedVolume ⟨[if whole then 1 else 121], 1 / 10, 100, 6, false, whole⟩ whole (1 / 2)
          (6 * mpch (tenths h).h / (tenths h).inL) 0).1 = 121 / 2 := by
        cases whole
        · simp [wantedVolume]; norm_num
        · simp only [wantedVolume, if_true]
          rw [← hq]; norm_num
      rw [hD]
      exact ⟨_, _, _, _, _, _, hwell⟩) out hout
  exact ⟨res, hout, hlen⟩

end Verif.Api
