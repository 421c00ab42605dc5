import Verif.Api.Viz

/-!
# Pictures show the shapes of the catalogue (C111)
-/

set_option linter.unusedSectionVars false

namespace Verif.Api

open Verif.Units Verif.Catalogue Verif.Periodic Verif.Par Verif.Shapes

/-! ## Indices -/

theorem pyIndex_last {α : Type} (l : List α) : pyIndex l (-1) = l.getLast? := by
  unfold pyIndex
  cases l with
  | nil => simp
  | cons x l =>
    rw [if_neg (by omega), if_pos (by simp), List.getLast?_eq_getElem?]
    congr 1
    simp only [List.length_cons]
    omega

theorem pyIndex_nonneg {α : Type} (l : List α) (n : Nat) : pyIndex l (n : Int) = l[n]? := by
  simp [pyIndex]

theorem pyIndex_exists {α : Type} (l : List α) (i : Int) (h1 : -(l.length : Int) ≤ i)
    (h2 : i < l.length) : ∃ x, pyIndex l i = some x := by
  unfold pyIndex
  by_cases h0 : 0 ≤ i
  · rw [if_pos h0]
    exact ⟨_, List.getElem?_eq_getElem (by omega)⟩
  · rw [if_neg h0, if_pos (by omega)]
    exact ⟨_, List.getElem?_eq_getElem (by omega)⟩

/-- The picture of local shapes of a non-empty row. -/
theorem localFigure_exists (row : List ShapeEntry) (hrow : row ≠ []) (centre : Vec ℝ)
    (particles : List (Vec ℝ)) :
    ∃ fig e, localFigure row centre particles = some fig ∧ row.getLast? = some e ∧
      fig.particles = particles ∧ fig.centre = centre ∧ fig.ellipsoid = drawEllipsoid e centre := by
  have hpos : 0 < row.length := List.length_pos_iff.2 hrow
  obtain ⟨e, he⟩ : ∃ e, row.getLast? = some e := ⟨_, List.getLast?_eq_getLast_of_ne_nil hrow⟩
  have harr : ∃ arrows, ((arrowIndices ((row.length : Int) - 1)).mapM fun i => (pyIndex row i).map fun e =>
      arrowsOf e fun l => if i = (row.length : Int) - 1 - 1 then some l else none) = some arrows := by
    apply mapM_exists
    intro i hi
    unfold arrowIndices at hi
    obtain ⟨k, hk, rfl⟩ := List.mem_map.1 hi
    have hk := List.mem_range.1 hk
    obtain ⟨x, hx⟩ := pyIndex_exists row ((row.length : Int) - 1 - ((row.length : Int) - 1) / 5 + k)
      (by omega) (by omega)
    exact ⟨_, by rw [hx]; rfl⟩
  obtain ⟨arrows, harr⟩ := harr
  obtain ⟨sp, hsp⟩ := pyIndex_exists row ((-((row.length : Int) - 1)) / 5) (by omega) (by omega)
  refine ⟨⟨particles, centre, drawEllipsoid e centre, arrows.flatten, some (drawEllipsoid sp centre,
    arrowsOf sp fun l => some (l ++ " " ++ toString ((-((row.length : Int) - 1)) / 5)))⟩, e, ?_, he, rfl, rfl,
    rfl⟩
  unfold localFigure
  dsimp only
  rw [pyIndex_last, he, Option.bind_some, harr, Option.bind_some, hsp]
  rfl

theorem globalFigure_exists (row : List ShapeEntry) (hrow : row.length = 1) (centre : Vec ℝ)
    (particles : List (Vec ℝ)) :
    ∃ fig e, globalFigure row centre particles = some fig ∧ row.getLast? = some e ∧
      fig.particles = particles ∧ fig.centre = centre ∧ fig.ellipsoid = drawEllipsoid e centre ∧
      fig.arrows = arrowsOf e some := by
  match row, hrow with
  | [e], _ => exact ⟨_, e, rfl, rfl, rfl, rfl, rfl, rfl⟩

/-! ## One object -/

theorem recentreAxis_inside (L x : ℝ) (h0 : 0 ≤ x) (h1 : x < L) : recentreAxis L x = x := by
  unfold recentreAxis
  simp only [if_neg (not_le.2 h1), if_neg (not_lt.2 h0), ge_iff_le]

/-- A mean of particles in the box is in the box. -/
theorem weightedMean_inside (L : ℝ) (ps : List (Particle ℝ)) (hne : ps ≠ []) (hm : ∀ p ∈ ps, 0 < p.mass)
    (a : Fin 3) (h : ∀ p ∈ ps, 0 ≤ p.pos a ∧ p.pos a < L) :
    0 ≤ weightedMean ps a ∧ weightedMean ps a < L := by
  have hM : 0 < totalMass ps := totalMass_pos ps hne hm
  unfold weightedMean
  constructor
  · apply div_nonneg _ hM.le
    apply List.sum_nonneg
    intro y hy
    obtain ⟨p, hp, rfl⟩ := List.mem_map.1 hy
    exact mul_nonneg (hm p hp).le (h p hp).1
  · rw [div_lt_iff₀ hM]
    unfold totalMass
    rw [← sum_map_mul_left']
    clear hM
    induction ps with
    | nil => exact absurd rfl hne
    | cons p ps ih =>
      simp only [List.map_cons, List.sum_cons]
      have hp : p.mass * p.pos a < L * p.mass := by
        have := hm p (by simp); have := (h p (by simp)).2; nlinarith
      by_cases hps : ps = []
      · subst hps; simpa using hp
      · have := ih hps (fun p hp => hm p (by simp [hp])) fun p hp => h p (by simp [hp])
        linarith

/-- The particles drawn of a resolved object. -/
theorem drawnParticles_eq (choose pick : Nat → List Nat) (fac f g : ℝ) (xyz : List (Vec ℝ))
    (masses : List ℝ) (box : ℝ) (objs : List (List Nat × ℝ)) (minPtcs : Int)
    (hs : Sensible xyz masses box objs) (o : Obj)
    (hx : o.xyz = xyz.map fun p a => p a * f) (hm : o.masses = masses.map fun x => x * g)
    (hcat : o.idxCat = ((resolved minPtcs objs).map Prod.fst).flatten)
    (hsizes : o.sizes = (resolved minPtcs objs).map fun o => o.1.length)
    (z : Nat) (obj : List Nat × ℝ) (hobj : (resolved minPtcs objs)[z]? = some obj) :
    ∃ shown, drawnParticles choose pick fac o z = some shown ∧
      ((particlesOf xyz masses obj.1).length ≤ 5000 →
        shown = (unwrapped choose o.box ((particlesOf xyz masses obj.1).map (scale f g))).map
          fun p a => p.pos a * fac) := by
  have hslice : objSlice o.idxCat o.sizes z = some obj.1 := by
    rw [hcat, hsizes]
    have := objSlice_eq ((resolved minPtcs objs).map Prod.fst) z obj.1 (by rw [List.getElem?_map, hobj]; rfl)
    rw [List.map_map] at this
    exact this
  have hgather := gather_eq o xyz masses f g hx hm hs.lengths obj.1
    (hs.exist obj (List.mem_of_mem_filter (List.mem_of_getElem? hobj)))
  unfold drawnParticles
  rw [hslice, Option.bind_some, hgather]
  refine ⟨_, rfl, ?_⟩
  intro hle
  have hlen : ((respectPBCNoRef (choose ((particlesOf xyz masses obj.1).map (scale f g)).length)
      (((particlesOf xyz masses obj.1).map (scale f g)).map fun p => p.pos) o.box).map
        fun x a => x a * fac).length = (particlesOf xyz masses obj.1).length := by
    unfold respectPBCNoRef
    split <;> simp
  dsimp only
  rw [if_neg (by rw [hlen]; omega)]
  unfold unwrapped
  set ps := (particlesOf xyz masses obj.1).map (scale f g)
  have hl2 : (respectPBCNoRef (choose ps.length) (ps.map fun p => p.pos) o.box).length = ps.length := by
    unfold respectPBCNoRef
    split <;> simp
  rw [List.map_zipWith]
  generalize respectPBCNoRef (choose ps.length) (ps.map fun p => p.pos) o.box = ys at hl2
  clear_value ps
  clear hgather hlen
  induction ys generalizing ps with
  | nil => rfl
  | cons y ys ih =>
    match ps, hl2 with
    | p :: ps, hl2 =>
      simp only [List.map_cons, List.zipWith_cons_cons]
      rw [ih ps (by simpa using hl2)]

/-! ## C111 -/

/-- C111 (partial). Take sensible data, make an object of it and ask for pictures of local or global
shapes of a good selection.  One picture is drawn for each selected object, in the order of the
selection.  For an object which does not cross a face of the box: the centre marked is the mean position
of its particles (all for `CENTER = 'com'`, some for `'mode'`), the particles drawn (if at most 5000) are
its particles, both in output units; the legend shows the semi-axes `d, q d, s d` of the outermost entry of
the catalogue, and if no component of its axes is NaN the 500 points drawn are on the surface of the
ellipsoid with these axes and semi-axes around the centre.  The arrows of global shapes are these axes.
If nothing is drawn, mode finding exceeded the recursion limit or the catalogue call fails (C106).
Missing: axes with a zero component, objects crossing a face of the box, arrows of local shapes (see the
refutations below). -/
theorem C111_picture_partial (c c' : Cfg ℝ) (hc : c.Pos) (hc' : c'.Pos) (hh : c'.h = c.h)
    (xyz : List (Vec ℝ)) (masses : List ℝ) (box : ℝ) (objs : List (List Nat × ℝ)) (minPtcs : Int)
    (hmin : 1 ≤ minPtcs) (center : Center) (hs : Sensible xyz masses box objs)
    (hr200 : ∀ o ∈ objs, 0 < o.2) (sol : Solver) (hsol : GoodSolver sol)
    (choose pick : Nat → List Nat) (hch : ∀ n, 0 < n → ∃ j ∈ choose n, j < n) (limit : Nat) (o : Obj)
    (ho : construct c ⟨xyz, masses, .nested (objs.map Prod.fst), .array (objs.map Prod.snd), box,
      minPtcs, center⟩ = .ok o)
    (katz : Katz) (htol : katz.tol < 1) (hradii : ∀ r ∈ katz.radii, 0 < r) (hne : katz.radii ≠ [])
    (whole : Bool) (sel : List Int) (hsel : GoodSelection sel (resolved minPtcs objs).length)
    (out : Except VizErr (List Figure))
    (hrun : VizShapes c' sol choose pick limit o katz whole sel out) :
    (out = .error (.shape (.api .recursion)) ∧ center = .mode) ∨
    out = .error (.shape .zeroDivision) ∨
    ∃ figs, out = .ok figs ∧ figs.length = sel.length ∧
      ∀ (k : Nat) (z : Int) (obj : List Nat × ℝ), sel[k]? = some z →
        (resolved minPtcs objs)[z.toNat]? = some obj →
        NotCrossing box (particlesOf xyz masses obj.1) →
        ∃ (fig : Figure) (sub : List (Particle ℝ)) (e : ShapeEntry), figs[k]? = some fig ∧
          sub.Sublist (particlesOf xyz masses obj.1) ∧ sub ≠ [] ∧
          (center = .com → sub = particlesOf xyz masses obj.1) ∧
          (∀ a, fig.centre a * c'.outL = weightedMean sub a * c.inL) ∧
          ((particlesOf xyz masses obj.1).length ≤ 5000 →
            List.Forall₂ (fun x p => ∀ a, x a * c'.outL = p.pos a * c.inL) fig.particles
              (particlesOf xyz masses obj.1)) ∧
          Answers (task katz sol (particlesOf xyz masses obj.1) (weightedMean sub)
            (wantedVolume katz whole obj.2 (6 * mpch c.h / c.inL) (wantedColumns katz whole - 1)))
            c.inL c'.outL e ∧
          (∀ d q s, e.d = some d → e.q = some q → e.s = some s →
            fig.ellipsoid.legend = (some d, some (q * d), some (s * d)) ∧
            (whole = true → fig.arrows = [⟨e.major, some d, some "Major"⟩,
              ⟨e.inter, some (q * d), some "Intermediate"⟩, ⟨e.minor, some (s * d), some "Minor"⟩]) ∧
            ∀ major inter minor : Vec ℝ, (∀ i, e.major i = some (major i)) →
              (∀ i, e.inter i = some (inter i)) → (∀ i, e.minor i = some (minor i)) →
              ShowsEllipsoid fig.ellipsoid fig.centre major inter minor d (q * d) (s * d)) := by
  have hcore := fun out h => shapes_core c c' hc hc' hh xyz masses box objs minPtcs hmin center hs hr200 sol
    hsol choose hch limit o ho katz htol hradii whole sel hsel out h
  cases hrun with
  | failed e h =>
    rcases hcore _ h with ⟨h1, h2⟩ | ⟨h1, -⟩ | ⟨res, h1, -⟩
    · left
      refine ⟨?_, h2⟩
      rw [Except.error.inj h1]
    · right; left
      rw [Except.error.inj h1]
    · cases h1
  | drawn res hres parts h centers hcen l m hu _ hout =>
    right; right
    rcases hcore _ hres with ⟨h1, -⟩ | ⟨h1, -⟩ | ⟨res', h1, hlen, hrows⟩
    · cases h1
    · cases h1
    have h1 := Except.ok.inj h1
    subst h1
    have hl := mpch_pos hc.h
    have hms := msunh10_pos hc.h
    have hfp : 0 < c.inL / mpch c.h := div_pos hc.inL hl
    have hgp : 0 < c.inM / msunh10 c.h := div_pos hc.inM hms
    rw [construct_eq c xyz masses box objs minPtcs center hs.lengths hs.objects] at ho
    have ho := Except.ok.inj ho
    set f := c.inL / mpch c.h with hf
    set g := c.inM / msunh10 c.h with hg
    obtain ⟨parts', hsp, hplen, hpk⟩ := selected f g xyz masses box objs minPtcs hmin hs o
      (by rw [← ho]) (by rw [← ho]) (by rw [← ho]) (by rw [← ho]) sel hsel
    rw [hsp] at h
    have h := Except.ok.inj h
    subst h
    have hocen : o.center = center := by rw [← ho]
    have hobox : o.box = box * f := by rw [← ho]
    rw [internalLM_eq] at hu
    have hu := Except.ok.inj hu
    obtain ⟨rfl, rfl⟩ := Prod.mk.inj hu
    rw [hocen, hobox] at hcen
    have hclen := (mapM_some_get _ _ _ hcen).1
    have hcols : 0 < wantedColumns katz whole := by
      unfold wantedColumns
      cases whole with
      | true => simp
      | false => simpa [List.length_pos_iff] using hne
    -- one picture
    set draw := fun x : Int × (List ShapeEntry × Vec ℝ) =>
      (drawnParticles choose pick (mpch c'.h / c'.outL) o x.1.toNat).bind
        ((if whole then globalFigure else localFigure) x.2.1 fun a => x.2.2 a * (mpch c'.h / c'.outL))
      with hdraw
    have hone : ∀ (z : Int) (obj : List Nat × ℝ) (row : List ShapeEntry) (v : Vec ℝ),
        (resolved minPtcs objs)[z.toNat]? = some obj → row.length = wantedColumns katz whole →
        ∃ fig e, draw (z, row, v) = some fig ∧
          row[wantedColumns katz whole - 1]? = some e ∧ (∀ a, fig.centre a = v a * (mpch c'.h / c'.outL)) ∧
          fig.ellipsoid = drawEllipsoid e fig.centre ∧ (whole = true → fig.arrows = arrowsOf e some) ∧
          ((particlesOf xyz masses obj.1).length ≤ 5000 →
            fig.particles = (unwrapped choose (box * f) ((particlesOf xyz masses obj.1).map (scale f g))).map
              fun p a => p.pos a * (mpch c'.h / c'.outL)) := by
      intro z obj row v hobj hrow
      obtain ⟨shown, hsh1, hsh2⟩ := drawnParticles_eq choose pick (mpch c'.h / c'.outL) f g xyz masses box
        objs minPtcs hs o (by rw [← ho]) (by rw [← ho]) (by rw [← ho]) (by rw [← ho]) z.toNat obj hobj
      rw [hobox] at hsh2
      have hlast : row.getLast? = row[wantedColumns katz whole - 1]? := by
        rw [List.getLast?_eq_getElem?, hrow]
      cases whole with
      | true =>
        obtain ⟨fig, e, h1, h2, h3, h4, h5, h6⟩ := globalFigure_exists row hrow
          (fun a => v a * (mpch c'.h / c'.outL)) shown
        refine ⟨fig, e, ?_, by rw [← hlast, h2], fun a => by rw [h4], by rw [h5, h4], fun _ => h6, ?_⟩
        · rw [hdraw]
          simp only
          rw [hsh1]
          exact h1
        · intro hle; rw [h3, hsh2 hle]
      | false =>
        obtain ⟨fig, e, h1, h2, h3, h4, h5⟩ := localFigure_exists row
          (by rintro rfl; simp at hrow; omega) (fun a => v a * (mpch c'.h / c'.outL)) shown
        refine ⟨fig, e, ?_, by rw [← hlast, h2], fun a => by rw [h4], by rw [h5, h4],
          fun h => (Bool.false_ne_true h).elim, ?_⟩
        · rw [hdraw]
          simp only
          rw [hsh1]
          exact h1
        · intro hle; rw [h3, hsh2 hle]
    have hzip : ∀ (k : Nat) (z : Int) (obj : List Nat × ℝ), sel[k]? = some z →
        (resolved minPtcs objs)[z.toNat]? = some obj → ∀ row, res[k]? = some row →
        ∃ v, shapeCentre choose limit (box * f) center ((particlesOf xyz masses obj.1).map (scale f g)) = some v ∧
          (sel.zip (res.zip (recentreObject centers o.box)))[k]? =
            some (z, row, fun a => recentreAxis (box * f) (v a)) := by
      intro k z obj hk hobj row hrow
      obtain ⟨hpk1, -⟩ := hpk k z obj hk hobj
      obtain ⟨v, hv1, hv2⟩ := (mapM_some_get _ _ _ hcen).2 k _ hpk1
      refine ⟨v, hv2, ?_⟩
      rw [List.getElem?_zip_eq_some]
      refine ⟨hk, ?_⟩
      rw [List.getElem?_zip_eq_some]
      refine ⟨hrow, ?_⟩
      unfold recentreObject
      rw [List.getElem?_map, hv1, hobox]
      rfl
    have hzlen : (sel.zip (res.zip (recentreObject centers o.box))).length = sel.length := by
      simp only [List.length_zip, recentreObject, List.length_map, hclen, hplen, hlen, min_self]
    obtain ⟨figs, hfigs⟩ : ∃ figs, (sel.zip (res.zip (recentreObject centers o.box))).mapM draw = some figs := by
      apply mapM_exists
      intro x hx
      obtain ⟨k, hk⟩ := List.mem_iff_getElem?.1 hx
      have hklt : k < sel.length := by
        rw [← hzlen]; exact (List.getElem?_eq_some_iff.1 hk).1
      have hz : sel[k]? = some sel[k] := List.getElem?_eq_getElem hklt
      have hzr := hsel.2.2 _ (List.getElem_mem hklt)
      have hob : (resolved minPtcs objs)[sel[k].toNat]? =
          some ((resolved minPtcs objs)[sel[k].toNat]'(by omega)) := List.getElem?_eq_getElem (by omega)
      obtain ⟨row, hr1, hr2, -⟩ := hrows k _ _ hz hob
      obtain ⟨v, -, hv⟩ := hzip k _ _ hz hob row hr1
      rw [hk] at hv
      rw [Option.some.inj hv]
      obtain ⟨fig, -, h1, -⟩ := hone _ _ row _ hob hr2
      exact ⟨fig, h1⟩
    rw [hfigs] at hout
    obtain ⟨hflen, hfk⟩ := mapM_some_get _ _ _ hfigs
    refine ⟨figs, hout, by rw [hflen, hzlen], ?_⟩
    intro k z obj hk hobj hnc
    obtain ⟨row, hr1, hr2, hr3⟩ := hrows k z obj hk hobj
    obtain ⟨v, hv1, hv2⟩ := hzip k z obj hk hobj row hr1
    obtain ⟨fig, hf1, hf2⟩ := hfk k _ hv2
    obtain ⟨fig', e, hd1, he, hcentre, hell, harr, hpart⟩ := hone z obj row _ hobj hr2
    rw [hd1] at hf2
    obtain rfl := Option.some.inj hf2
    obtain ⟨sub, s1, s2, s3, s4, s5⟩ := hr3 hnc
    have hans := s5 _ e he
    rw [hv1] at s4
    have s4 := Option.some.inj s4
    have hmean : ∀ a, 0 ≤ v a ∧ v a < box * f := by
      intro a
      have := weightedMean_inside box sub s2
        (fun p hp => hs.masses_pos _ (mem_particlesOf (s1.subset hp)).2) a
        (fun p hp => hs.inside _ (mem_particlesOf (s1.subset hp)).1 a)
      rw [s4]
      exact ⟨mul_nonneg this.1 hfp.le, mul_lt_mul_of_pos_right this.2 hfp⟩
    have hout0 := hc'.outL.ne'
    refine ⟨fig', sub, e, hf1, s1, s2, s3, ?_, ?_, hans, ?_⟩
    · intro a
      rw [hcentre a]
      rw [recentreAxis_inside _ _ (hmean a).1 (hmean a).2, s4, hf, hh]
      field_simp
    · intro hle
      obtain ⟨-, hpne⟩ := hpk k z obj hk hobj
      rw [hpart hle, unwrapped_of_notCrossing choose (box * f) (mul_pos hs.box_pos hfp) _
        (hch _ (by simpa [List.length_pos_iff] using hpne)) (notCrossing_scale box f g hfp _ hnc), List.map_map]
      generalize particlesOf xyz masses obj.1 = qs
      induction qs with
      | nil => exact List.Forall₂.nil
      | cons q qs ih =>
        refine List.Forall₂.cons (fun a => ?_) ih
        simp only [Function.comp, scale]
        rw [hf, hh]
        field_simp
    · intro d q s hd hq hs'
      have hsemi : semiAxes e = (some d, some (q * d), some (s * d)) := by
        simp [semiAxes, hd, hq, hs']
      refine ⟨by rw [hell]; exact hsemi, ?_, ?_⟩
      · intro hw
        rw [harr hw]
        simp [arrowsOf, hsemi]
      · intro major inter minor hmaj hint hmin'
        rw [hell]
        rcases hans with ⟨-, h0, -⟩ | ⟨mo, d', ⟨n, e0, e', -, -, -, ⟨horth, a, b, c'', hcp, hcb, hba, eq, es, -⟩, -, hm⟩,
          -, e2, e3, e4, e5, e6⟩
        · rw [h0] at hd; cases hd
        · rw [hd] at e4
          rw [hq] at e2
          rw [hs'] at e3
          have e4 := Option.some.inj e4
          have e2 := Option.some.inj e2
          have e3 := Option.some.inj e3
          have ha : 0 < a := by linarith
          have hb : 0 < b := by linarith
          have hmq := congrArg Morph.q hm
          have hmsq := congrArg Morph.s hm
          have hshown : ∀ (u w : Vec ℝ) (x : NanVec), (∀ i, x i = some (u i)) → (∀ i, x i = Api.shown (w i)) →
              u = w := by
            intro u w x h1 h2
            funext i
            have := (h1 i).symm.trans (h2 i)
            unfold Api.shown at this
            split at this
            · cases this
            · exact Option.some.inj this
          have q1 := hshown _ _ _ hmaj fun i => (e6 i).1
          have q2 := hshown _ _ _ hint fun i => (e6 i).2.1
          have q3 := hshown _ _ _ hmin' fun i => (e6 i).2.2
          have hmM := congrArg Morph.major hm
          have hmI := congrArg Morph.inter hm
          have hmN := congrArg Morph.minor hm
          simp only at hmM hmI hmN hmq hmsq
          have hdpos : 0 < (task katz sol (particlesOf xyz masses obj.1) (weightedMean sub)
              (wantedVolume katz whole obj.2 (6 * mpch c.h / c.inL) (wantedColumns katz whole - 1))).d := by
            show 0 < (wantedVolume katz whole obj.2 (6 * mpch c.h / c.inL) _).1
            have hR := hr200 obj (List.mem_of_mem_filter (List.mem_of_getElem? hobj))
            unfold wantedVolume
            cases whole with
            | true =>
              simp only [if_true]
              have := hc.inL
              positivity
            | false =>
              simp only [Bool.false_eq_true, if_false]
              have hblt : wantedColumns katz false - 1 < katz.radii.length := by
                show katz.radii.length - 1 < _
                have : 0 < katz.radii.length := hcols
                omega
              rw [List.getElem?_eq_getElem hblt]
              exact mul_pos hR (hradii _ (List.getElem_mem hblt))
          have hd0 : d ≠ 0 := by
            rintro rfl
            rw [← e4, zero_mul] at e5
            have := mul_pos hdpos hc.inL
            linarith
          refine drawEllipsoid_shows e fig'.centre major inter minor d q s hd hq hs' (funext hmaj) (funext hint)
            (funext hmin') ?_ hd0 ?_ ?_
          · rw [q1, q2, q3, hmM, hmI, hmN]; exact horth
          · rw [e2, hmq, eq]; exact (div_pos hb ha).ne'
          · rw [e3, hmsq, es]; exact (div_pos hcp ha).ne'

/-! ## What is missing -/

/-- Each picture drawn is the picture of one row of a catalogue which `getShapeCat*` may return. -/
theorem viz_inv (c : Cfg ℝ) (sol : Solver) (choose pick : Nat → List Nat) (limit : Nat) (o : Obj)
    (katz : Katz) (whole : Bool) (sel : List Int) (figs : List Figure)
    (hrun : VizShapes c sol choose pick limit o katz whole sel (.ok figs)) :
    ∃ res parts centers, GetShapeCat c sol choose limit o katz whole sel (.ok res) ∧
      selectParticles o sel = .ok parts ∧
      parts.mapM (shapeCentre choose limit o.box o.center) = some centers ∧
      ∀ (k : Nat) (fig : Figure), figs[k]? = some fig → ∃ z row v shown, sel[k]? = some z ∧
        res[k]? = some row ∧ (recentreObject centers o.box)[k]? = some v ∧
        drawnParticles choose pick (mpch c.h / c.outL) o z.toNat = some shown ∧
        (if whole then globalFigure else localFigure) row (fun a => v a * (mpch c.h / c.outL)) shown =
          some fig := by
  generalize hg : (Except.ok figs : Except VizErr (List Figure)) = out at hrun
  cases hrun with
  | failed e h => cases hg
  | drawn res hres parts h centers hc l m hu out hout =>
    subst hg
    rw [internalLM_eq] at hu
    obtain ⟨rfl, rfl⟩ := Prod.mk.inj (Except.ok.inj hu)
    refine ⟨res, parts, centers, hres, h, hc, ?_⟩
    intro k fig hk
    set draw := fun x : Int × (List ShapeEntry × Vec ℝ) =>
      (drawnParticles choose pick (mpch c.h / c.outL) o x.1.toNat).bind
        ((if whole then globalFigure else localFigure) x.2.1 fun a => x.2.2 a * (mpch c.h / c.outL))
      with hdraw
    cases hm : (sel.zip (res.zip (recentreObject centers o.box))).mapM draw with
    | none => rw [hm] at hout; cases hout
    | some figs' =>
      rw [hm] at hout
      obtain rfl := Except.ok.inj hout
      obtain ⟨hlen, hget⟩ := mapM_some_get _ _ _ hm
      have hklt := (List.getElem?_eq_some_iff.1 hk).1
      obtain ⟨⟨z, row, v⟩, hx⟩ : ∃ x, (sel.zip (res.zip (recentreObject centers o.box)))[k]? = some x :=
        ⟨_, List.getElem?_eq_getElem (by omega)⟩
      obtain ⟨fig', hf1, hf2⟩ := hget k _ hx
      rw [hk] at hf1
      obtain rfl := Option.some.inj hf1
      obtain ⟨hz, hx'⟩ := List.getElem?_zip_eq_some.1 hx
      obtain ⟨hrow, hv⟩ := List.getElem?_zip_eq_some.1 hx'
      simp only [hdraw] at hf2
      obtain ⟨shown, hs1, hs2⟩ := Option.bind_eq_some_iff.1 hf2
      exact ⟨z, row, v, shown, hz, hrow, hv, hs1, hs2⟩

/-- The arrows of local shapes: none for at most five radii; otherwise the last ones, which carry the
labels, are the axes of the last but one radius. -/
theorem localFigure_arrows (row : List ShapeEntry) (centre : Vec ℝ) (particles : List (Vec ℝ))
    (fig : Figure) (h : localFigure row centre particles = some fig) :
    (row.length ≤ 5 → fig.arrows = []) ∧
    (6 ≤ row.length → ∃ e, row[row.length - 2]? = some e ∧
      fig.arrows.filter (fun a => a.label.isSome) = arrowsOf e some) := by
  unfold localFigure at h
  dsimp only at h
  obtain ⟨last, h1, h⟩ := Option.bind_eq_some_iff.1 h
  obtain ⟨arrows, h2, h⟩ := Option.bind_eq_some_iff.1 h
  obtain ⟨sp, h3, h⟩ := Option.map_eq_some_iff.1 h
  subst h
  have hpos : 0 < row.length := by
    rcases row with _ | ⟨x, row⟩
    · simp [pyIndex] at h1
    · simp
  constructor
  · intro hle
    have : arrowIndices ((row.length : Int) - 1) = [] := by
      unfold arrowIndices
      have : (((row.length : Int) - 1) / 5).toNat = 0 := by omega
      rw [this]; rfl
    rw [this] at h2
    simp only [List.mapM_nil, Option.pure_def, Option.some.injEq] at h2
    rw [← h2]; rfl
  · intro hge
    obtain ⟨n, hn⟩ : ∃ n : Nat, (((row.length : Int) - 1) / 5).toNat = n + 1 :=
      ⟨(((row.length : Int) - 1) / 5).toNat - 1, by omega⟩
    have hidx : arrowIndices ((row.length : Int) - 1) =
        ((List.range n).map fun k : Nat => (row.length : Int) - 1 - ((row.length : Int) - 1) / 5 + (k : Int)) ++
          [(row.length : Int) - 1 - 1] := by
      unfold arrowIndices
      rw [hn, List.range_succ, List.map_append, List.map_singleton]
      congr 2
      omega
    rw [hidx, List.mapM_append] at h2
    simp only [Option.pure_def, Option.bind_eq_bind, List.mapM_cons, List.mapM_nil] at h2
    obtain ⟨before, hb, h2⟩ := Option.bind_eq_some_iff.1 h2
    obtain ⟨lst, hl, h2⟩ := Option.bind_eq_some_iff.1 h2
    obtain ⟨ar, har, hl⟩ := Option.bind_eq_some_iff.1 hl
    simp only [Option.bind_some, Option.some.injEq] at hl h2
    obtain ⟨e, he, har⟩ := Option.map_eq_some_iff.1 har
    have hi : (row.length : Int) - 1 - 1 = ((row.length - 2 : Nat) : Int) := by omega
    rw [hi, pyIndex_nonneg] at he
    refine ⟨e, he, ?_⟩
    rw [← h2, ← hl, ← har]
    have hquiet : before.flatten.filter (fun a => a.label.isSome) = [] := by
      rw [List.filter_eq_nil_iff]
      intro a ha
      obtain ⟨as, has, ha⟩ := List.mem_flatten.1 ha
      obtain ⟨hlen, hget⟩ := mapM_some_get _ _ _ hb
      obtain ⟨k, hk⟩ := List.mem_iff_getElem?.1 has
      have hklt := (List.getElem?_eq_some_iff.1 hk).1
      have hkn : k < n := by simpa [hlen] using hklt
      have hix : (((List.range n).map fun k : Nat =>
          (row.length : Int) - 1 - ((row.length : Int) - 1) / 5 + (k : Int)))[k]? =
          some ((row.length : Int) - 1 - ((row.length : Int) - 1) / 5 + (k : Int)) := by
        rw [List.getElem?_map, List.getElem?_range hkn]; rfl
      obtain ⟨b, hb1, hb2⟩ := hget k _ hix
      rw [hk] at hb1
      obtain rfl := Option.some.inj hb1
      obtain ⟨e', -, hb2⟩ := Option.map_eq_some_iff.1 hb2
      have hne : (row.length : Int) - 1 - ((row.length : Int) - 1) / 5 + (k : Int) ≠
          (row.length : Int) - 1 - 1 := by omega
      simp only [if_neg hne] at hb2
      rw [← hb2] at ha
      simp only [arrowsOf, List.mem_cons, List.not_mem_nil, or_false] at ha
      rcases ha with rfl | rfl | rfl <;> simp
    rw [List.flatten_append, List.filter_append, hquiet]
    simp [arrowsOf]

/-- C111 fails for the arrows of local shapes: the ellipsoid drawn and its legend are those of the
outermost radius, but no arrow is drawn for at most five radii, and for more radii the arrows labelled
"Major", "Intermediate" and "Minor" are the axes at the last radius but one. -/
theorem C111_arrows_refuted (c : Cfg ℝ) (sol : Solver) (choose pick : Nat → List Nat) (limit : Nat) (o : Obj)
    (katz : Katz) (sel : List Int) (figs : List Figure)
    (hrun : VizShapes c sol choose pick limit o katz false sel (.ok figs)) :
    ∃ res, GetShapeCat c sol choose limit o katz false sel (.ok res) ∧
      ∀ (k : Nat) (fig : Figure), figs[k]? = some fig → ∃ row, res[k]? = some row ∧
        (∃ e, row.getLast? = some e ∧ fig.ellipsoid = drawEllipsoid e fig.centre) ∧
        (row.length ≤ 5 → fig.arrows = []) ∧
        (6 ≤ row.length → ∃ e, row[row.length - 2]? = some e ∧
          fig.arrows.filter (fun a => a.label.isSome) = [⟨e.major, (semiAxes e).1, some "Major"⟩,
            ⟨e.inter, (semiAxes e).2.1, some "Intermediate"⟩, ⟨e.minor, (semiAxes e).2.2, some "Minor"⟩]) := by
  obtain ⟨res, parts, centers, hres, -, -, hk⟩ := viz_inv _ _ _ _ _ _ _ _ _ _ hrun
  refine ⟨res, hres, ?_⟩
  intro k fig hf
  obtain ⟨z, row, v, shown, -, hrow, -, -, hfig⟩ := hk k fig hf
  simp only [Bool.false_eq_true, if_false] at hfig
  have ha := localFigure_arrows row _ shown fig hfig
  refine ⟨row, hrow, ?_, ha.1, ha.2⟩
  have hne : row ≠ [] := by
    rintro rfl
    simp [localFigure, pyIndex] at hfig
  obtain ⟨fig', e, h1, h2, -, h4, h5⟩ := localFigure_exists row hne (fun a => v a * (mpch c.h / c.outL)) shown
  rw [hfig] at h1
  obtain rfl := Option.some.inj h1
  exact ⟨e, h2, by rw [h5, h4]⟩

/-- Sensible data: the cross of C106. -/
theorem cross_sensible : Sensible crossXyz [1, 1, 1, 1, 1, 1] 20 [([0, 1, 2, 3, 4, 5], 100)] := by
  refine ⟨rfl, by norm_num, ?_, ?_, by simp, ?_⟩
  · intro x hx a
    simp only [crossXyz, List.mem_cons, List.not_mem_nil, or_false] at hx
    rcases hx with rfl | rfl | rfl | rfl | rfl | rfl <;> fin_cases a <;> norm_num
  · intro m hm
    simp only [List.mem_cons, List.not_mem_nil, or_false, or_self] at hm
    rw [hm]; norm_num
  · intro o ho i hi
    simp only [List.mem_singleton] at ho
    subst ho
    simp only [List.mem_cons, List.not_mem_nil, or_false] at hi
    simp only [crossXyz, List.length_cons, List.length_nil]
    omega

/-- Pictures can be drawn whenever the catalogue can be computed. -/
theorem viz_exists (c c' : Cfg ℝ)
    (xyz : List (Vec ℝ)) (masses : List ℝ) (box : ℝ) (objs : List (List Nat × ℝ)) (minPtcs : Int)
    (hmin : 1 ≤ minPtcs) (center : Center) (hs : Sensible xyz masses box objs) (sol : Solver)
    (choose pick : Nat → List Nat) (limit : Nat) (o : Obj)
    (ho : construct c ⟨xyz, masses, .nested (objs.map Prod.fst), .array (objs.map Prod.snd), box,
      minPtcs, center⟩ = .ok o)
    (katz : Katz) (whole : Bool)
    (sel : List Int) (hsel : GoodSelection sel (resolved minPtcs objs).length) :
    ∃ out, VizShapes c' sol choose pick limit o katz whole sel out := by
  obtain ⟨out, hout⟩ := C106_outcome_exists c c' xyz masses box objs minPtcs hmin center hs sol choose limit o ho
    katz whole sel hsel
  cases out with
  | error e => exact ⟨_, .failed e hout⟩
  | ok res =>
    rw [construct_eq c xyz masses box objs minPtcs center hs.lengths hs.objects] at ho
    have ho := Except.ok.inj ho
    obtain ⟨parts, hsp, -, -⟩ := selected _ _ xyz masses box objs minPtcs hmin hs o
      (by rw [← ho]) (by rw [← ho]) (by rw [← ho]) (by rw [← ho]) sel hsel
    have hcen : ∃ centers, parts.mapM (shapeCentre choose limit o.box o.center) = some centers := by
      generalize hg : (Except.ok res : Except ShapeErr _) = r at hout
      cases hout with
      | rejected e h => cases hg
      | diverges p h hc => cases hg
      | looped p h centers hc =>
        rw [hsp] at h
        obtain rfl := Except.ok.inj h
        exact ⟨_, hc⟩
    obtain ⟨centers, hcen⟩ := hcen
    exact ⟨_, .drawn res hout parts hsp centers hcen _ _ (internalLM_eq c') _ rfl⟩

/-- C111 fails for objects aligned with the box: the shape of the cross of C106 at R200 is found (axis
ratios 2/3 and 1/3, legend 100, 200/3, 100/3), but no point of the ellipsoid is visible, because the zero
components of its axes have become NaN. -/
theorem C111_aligned_refuted (h : ℝ) (hh : 0 < h) (sol : Solver) (hsol : GoodSolver sol)
    (choose pick : Nat → List Nat) (hch : ∀ n, 0 < n → ∃ j ∈ choose n, j < n) (limit : Nat) (o : Obj)
    (ho : construct ⟨mpch h, msunh10 h, 1, h, mpch h, msunh10 h, 1⟩ ⟨crossXyz, [1, 1, 1, 1, 1, 1],
      .nested [[0, 1, 2, 3, 4, 5]], .array [100], 20, 6, .com⟩ = .ok o) :
    (∃ out, VizShapes ⟨mpch h, msunh10 h, 1, h, mpch h, msunh10 h, 1⟩ sol choose pick limit o
      ⟨[1], 1 / 10, 100, 6, false, false⟩ false [0] out) ∧
    ∀ out, VizShapes ⟨mpch h, msunh10 h, 1, h, mpch h, msunh10 h, 1⟩ sol choose pick limit o
      ⟨[1], 1 / 10, 100, 6, false, false⟩ false [0] out →
      ∃ fig : Figure, out = .ok [fig] ∧
        fig.ellipsoid.legend = (some 100, some (2 / 3 * 100), some (1 / 3 * 100)) ∧
        Invisible fig.ellipsoid := by
  have hres : resolved 6 [([0, 1, 2, 3, 4, 5], (100 : ℝ))] = [([0, 1, 2, 3, 4, 5], 100)] := by
    simp [resolved]
  have hsel : GoodSelection [0] (resolved 6 [([0, 1, 2, 3, 4, 5], (100 : ℝ))]).length := by
    rw [hres]
    refine ⟨by simp, by simp, ?_⟩
    intro z hz
    simp only [List.mem_singleton] at hz
    subst hz
    simp
  have hl := mpch_pos hh
  have hms := msunh10_pos hh
  set cc : Cfg ℝ := ⟨mpch h, msunh10 h, 1, h, mpch h, msunh10 h, 1⟩ with hcc
  have hpos : cc.Pos := ⟨hl, hms, one_pos, hh, hl, hms, one_pos⟩
  refine ⟨viz_exists cc cc crossXyz [1, 1, 1, 1, 1, 1] 20 [([0, 1, 2, 3, 4, 5], 100)] 6 (by norm_num) .com
    cross_sensible sol choose pick limit o ho _ false [0] hsel, ?_⟩
  intro out hrun
  -- one picture is drawn
  obtain ⟨figs, rfl, hlen⟩ : ∃ figs, out = .ok figs ∧ figs.length = 1 := by
    have hcross := fun out' => C106_cross 20 le_rfl h hh sol hsol choose hch limit o ho out'
    rcases C111_picture_partial cc cc hpos hpos rfl crossXyz [1, 1, 1, 1, 1, 1] 20
      [([0, 1, 2, 3, 4, 5], 100)] 6 (by norm_num) .com cross_sensible (by simp) sol hsol choose pick hch limit o
      ho ⟨[1], 1 / 10, 100, 6, false, false⟩ (by norm_num) (by simp) (by simp) false [0] hsel out hrun with
      ⟨-, h'⟩ | h' | ⟨figs, h', hlen, -⟩
    · cases h'
    · subst h'
      generalize hg : (Except.error (VizErr.shape ShapeErr.zeroDivision) : Except VizErr (List Figure)) = r at hrun
      cases hrun with
      | failed e hcat =>
        obtain ⟨_, h1, -⟩ := hcross _ hcat
        cases h1
      | drawn res hres parts h centers hc l m hu out hout =>
        rw [← hg] at hout
        generalize (List.mapM (m := Option) _ _) = y at hout
        cases y <;> cases hout
    · exact ⟨figs, h', hlen⟩
  match figs, hlen with
  | [fig], _ =>
    refine ⟨fig, rfl, ?_⟩
    obtain ⟨res, _, _, hcat, -, -, hk⟩ := viz_inv _ _ _ _ _ _ _ _ _ _ hrun
    obtain ⟨z, row, v, shown, -, hrow, -, -, hfig⟩ := hk 0 fig rfl
    obtain ⟨e, he, -, hd, hq, hs, hnan⟩ := C106_cross 20 le_rfl h hh sol hsol choose hch limit o ho _ hcat
    have he := Except.ok.inj he
    subst he
    obtain rfl := Option.some.inj hrow
    simp only [Bool.false_eq_true, if_false] at hfig
    obtain ⟨fig', e', h1, h2, -, h4, h5⟩ := localFigure_exists [e] (by simp)
      (fun a => v a * (mpch cc.h / cc.outL)) shown
    rw [hfig] at h1
    obtain rfl := Option.some.inj h1
    obtain rfl : e = e' := Option.some.inj h2
    rw [h5]
    refine ⟨?_, drawEllipsoid_invisible e _ ⟨1, .inl hnan⟩⟩
    show semiAxes e = _
    simp [semiAxes, hd, hq, hs]

/-- Four particles on the two sides of a face of a box of 20. -/
noncomputable def faceXyz : List (Vec ℝ) := [![19, 5, 5], ![1, 5, 5], ![1, 5, 5], ![1, 5, 5]]

theorem face_sensible : Sensible faceXyz [100, 1, 1, 1] 20 [([0, 1, 2, 3], 100)] := by
  refine ⟨rfl, by norm_num, ?_, ?_, by simp, ?_⟩
  · intro x hx a
    simp only [faceXyz, List.mem_cons, List.not_mem_nil, or_false] at hx
    rcases hx with rfl | rfl | rfl | rfl <;> fin_cases a <;> norm_num
  · intro m hm
    simp only [List.mem_cons, List.not_mem_nil, or_false, or_self] at hm
    rcases hm with rfl | rfl <;> norm_num
  · intro o ho i hi
    simp only [List.mem_singleton] at ho
    subst ho
    simp only [List.mem_cons, List.not_mem_nil, or_false] at hi
    simp only [faceXyz, List.length_cons, List.length_nil]
    omega

/-- The average of all particles. -/
theorem face_reference (l : List Nat) (hl : l.Perm [0, 1, 2, 3]) (xs : List (Vec ℝ)) (a b c d : Vec ℝ)
    (hx : xs = [a, b, c, d]) (i : Fin 3) : reference l xs i = (a i + b i + c i + d i) / 4 := by
  subst hx
  unfold reference
  have hp := hl.filterMap fun j => ([a, b, c, d] : List (Vec ℝ))[j]?
  rw [hp.length_eq, (hp.map fun p => p i).sum_eq]
  norm_num [List.filterMap]
  ring

theorem face_unwrapped (l : List Nat) (hl : l.Perm [0, 1, 2, 3]) :
    respectPBCNoRef l ([![19, 5, 5], ![1, 5, 5], ![1, 5, 5], ![1, 5, 5]] : List (Vec ℝ)) 20 =
      [![-1, 5, 5], ![1, 5, 5], ![1, 5, 5], ![1, 5, 5]] := by
  unfold respectPBCNoRef
  rw [if_pos (by norm_num)]
  dsimp only
  have href := face_reference l hl _ (![19, 5, 5] : Vec ℝ) ![1, 5, 5] ![1, 5, 5] ![1, 5, 5] rfl
  simp only [List.map_cons, List.map_nil, href]
  have e1 : (fun i => unwrapAxis (20 : ℝ) (((![19, 5, 5] : Vec ℝ) i + (![1, 5, 5] : Vec ℝ) i +
      (![1, 5, 5] : Vec ℝ) i + (![1, 5, 5] : Vec ℝ) i) / 4) ((![19, 5, 5] : Vec ℝ) i)) = ![-1, 5, 5] := by
    funext i
    fin_cases i <;> norm_num [unwrapAxis]
  have e2 : (fun i => unwrapAxis (20 : ℝ) (((![19, 5, 5] : Vec ℝ) i + (![1, 5, 5] : Vec ℝ) i +
      (![1, 5, 5] : Vec ℝ) i + (![1, 5, 5] : Vec ℝ) i) / 4) ((![1, 5, 5] : Vec ℝ) i)) = ![1, 5, 5] := by
    funext i
    fin_cases i <;> norm_num [unwrapAxis]
  rw [e1, e2]

theorem face_reflected :
    cyRespectPBCNoRef ([![19, 5, 5], ![1, 5, 5], ![1, 5, 5], ![1, 5, 5]] : List (Vec ℝ)) 20 =
      [![19, 5, 5], ![19, 5, 5], ![19, 5, 5], ![19, 5, 5]] := by
  have e1 : cyReflect (20 : ℝ) ![19, 5, 5] ![1, 5, 5] = ![19, 5, 5] := by
    norm_num [cyReflect, abs_of_pos, Matrix.cons_val_two]
  have e2 : cyReflect (20 : ℝ) ![19, 5, 5] ![19, 5, 5] = ![19, 5, 5] := by
    norm_num [cyReflect]
  simp [cyRespectPBCNoRef, cyLoop, e1, e2]

/-- C111 fails for objects crossing a face of the box: the particles of mass 100 at x = 19 and of mass 1 at
x = 1, 1, 1 are drawn at -1, 1, 1, 1, but the centre of mass is marked at 20 - 97/103, one box length away
from the centre of mass of the particles drawn.  (`numpy` draws all four particles as reference particles, in
some order.) -/
theorem C111_crossing_refuted (h : ℝ) (hh : 0 < h) (sol : Solver)
    (choose pick : Nat → List Nat) (hch : (choose 4).Perm [0, 1, 2, 3]) (limit : Nat) (o : Obj)
    (ho : construct ⟨mpch h, msunh10 h, 1, h, mpch h, msunh10 h, 1⟩ ⟨faceXyz, [100, 1, 1, 1],
      .nested [[0, 1, 2, 3]], .array [100], 20, 4, .com⟩ = .ok o) :
    (∃ out, VizShapes ⟨mpch h, msunh10 h, 1, h, mpch h, msunh10 h, 1⟩ sol choose pick limit o
      ⟨[1], 1 / 10, 100, 4, false, false⟩ false [0] out) ∧
    ∀ out, VizShapes ⟨mpch h, msunh10 h, 1, h, mpch h, msunh10 h, 1⟩ sol choose pick limit o
      ⟨[1], 1 / 10, 100, 4, false, false⟩ false [0] out →
      ∃ fig : Figure, out = .ok [fig] ∧
        fig.particles.map (fun p => p 0) = ([-1, 1, 1, 1] : List ℝ) ∧
        weightedMean (List.zipWith (fun (x : Vec ℝ) m => ⟨x, m⟩) fig.particles [100, 1, 1, 1]) 0 = -97 / 103 ∧
        fig.centre 0 = 20 - 97 / 103 := by
  have hres : resolved 4 [([0, 1, 2, 3], (100 : ℝ))] = [([0, 1, 2, 3], 100)] := by
    simp [resolved]
  have hsel : GoodSelection [0] (resolved 4 [([0, 1, 2, 3], (100 : ℝ))]).length := by
    rw [hres]
    refine ⟨by simp, by simp, ?_⟩
    intro z hz
    simp only [List.mem_singleton] at hz
    subst hz
    simp
  have hl := mpch_pos hh
  have hms := msunh10_pos hh
  set cc : Cfg ℝ := ⟨mpch h, msunh10 h, 1, h, mpch h, msunh10 h, 1⟩ with hcc
  refine ⟨viz_exists cc cc faceXyz [100, 1, 1, 1] 20 [([0, 1, 2, 3], 100)] 4 (by norm_num) .com
    face_sensible sol choose pick limit o ho _ false [0] hsel, ?_⟩
  intro out hrun
  have ho' := Except.ok.inj ((construct_eq cc faceXyz [100, 1, 1, 1] 20 [([0, 1, 2, 3], 100)] 4 .com
    face_sensible.lengths face_sensible.objects).symm.trans ho)
  have hf : cc.inL / mpch cc.h = 1 := div_self hl.ne'
  have hg : cc.inM / msunh10 cc.h = 1 := div_self hms.ne'
  have hfo : mpch cc.h / cc.outL = 1 := div_self hl.ne'
  have hobox : o.box = 20 := by rw [← ho']; simp [hf]
  have hps : particlesOf faceXyz [100, 1, 1, 1] [0, 1, 2, 3] =
      [⟨![19, 5, 5], 100⟩, ⟨![1, 5, 5], 1⟩, ⟨![1, 5, 5], 1⟩, ⟨![1, 5, 5], 1⟩] := by
    simp [particlesOf, faceXyz]
  have hid : (scale (1 : ℝ) 1) = id := by funext p; exact scale_one p
  have hunw := face_unwrapped (choose 4) hch
  have hcentre : ∀ v, shapeCentre choose limit 20 .com
      [⟨![19, 5, 5], 100⟩, ⟨![1, 5, 5], 1⟩, ⟨![1, 5, 5], 1⟩, ⟨![1, 5, 5], 1⟩] = some v → v 0 = -97 / 103 := by
    intro v hv
    unfold shapeCentre at hv
    dsimp only at hv
    rw [← Option.some.inj hv]
    simp only [List.map_cons, List.map_nil, List.length_cons, List.length_nil, Nat.reduceAdd, hunw,
      List.zipWith_cons_cons, List.zipWith_nil_left]
    rw [calcCoM_eq]
    · norm_num [weightedMean, totalMass]
    · norm_num [totalMass]
  -- no exception
  have hcat : ∀ out', GetShapeCat cc sol choose limit o ⟨[1], 1 / 10, 100, 4, false, false⟩ false [0] out' →
      ∃ e, out' = .ok [[e]] := by
    intro out' hrun'
    rcases shape_rows cc cc faceXyz [100, 1, 1, 1] 20 [([0, 1, 2, 3], 100)] 4 (by norm_num) .com face_sensible sol
      choose limit o ho _ false [0] hsel out' hrun' with ⟨-, h⟩ | ⟨rows, hlen, hout, hrows⟩
    · cases h
    obtain ⟨-, v, hv, hrow⟩ := hrows 0 0 ([0, 1, 2, 3], 100) rfl (by rw [hres]; rfl)
    rw [hf, hg, hid, List.map_id, hps] at hrow
    have hpts : positionPts ((⟨[1], 1 / 10, 100, 4, false, false⟩ : Katz).settings sol (20 * 1))
        ⟨([⟨![19, 5, 5], 100⟩, ⟨![1, 5, 5], 1⟩, ⟨![1, 5, 5], 1⟩, ⟨![1, 5, 5], 1⟩] : List (Particle ℝ)).map
          fun p => ⟨p.pos, 0, p.mass⟩, v, 100 * 1⟩ =
        [⟨![19, 5, 5], ![19, 5, 5], 100⟩, ⟨![19, 5, 5], ![19, 5, 5], 1⟩, ⟨![19, 5, 5], ![19, 5, 5], 1⟩,
          ⟨![19, 5, 5], ![19, 5, 5], 1⟩] := by
      unfold positionPts
      unfold Shapes.unwrapped
      simp only [Katz.settings, List.map_cons, List.map_nil, mul_one, face_reflected]
      rfl
    have halone : ∃ m, aloneShapes ((⟨[1], 1 / 10, 100, 4, false, false⟩ : Katz).settings sol (20 * 1)) (kindOf false)
        ⟨([⟨![19, 5, 5], 100⟩, ⟨![1, 5, 5], 1⟩, ⟨![1, 5, 5], 1⟩, ⟨![1, 5, 5], 1⟩] : List (Particle ℝ)).map
          fun p => ⟨p.pos, 0, p.mass⟩, v, 100 * 1⟩ = some [m] := by
      refine ⟨Morph.zero, ?_⟩
      change pureLocal _ (positionPts _ _) _ _ _ _ = _
      rw [hpts]
      unfold pureLocal
      rw [if_pos]
      · rfl
      · norm_num [localSpread, Matrix.cons_val_two]
    obtain ⟨m, halone⟩ := halone
    rw [halone] at hrow
    rcases hout with ⟨-, k, hk⟩ | ⟨res, rfl, hlen', hres'⟩
    · have : k = 0 := by
        have := (List.getElem?_eq_some_iff.1 hk).1
        simp only [List.length_singleton] at hlen
        omega
      subst this
      rw [hk] at hrow; cases hrow
    · obtain ⟨ms, hms', hresk⟩ := hres' 0 _ hrow
      obtain rfl := Option.some.inj hms'
      match res, hlen' with
      | [r], _ =>
        have hr : r = _ := Option.some.inj hresk
        exact ⟨_, by rw [hr]; rfl⟩
  obtain ⟨parts, hsp, hplen, hpk⟩ := selected _ _ faceXyz [100, 1, 1, 1] 20 [([0, 1, 2, 3], 100)] 4
    (by norm_num) face_sensible o (by rw [← ho']) (by rw [← ho']) (by rw [← ho']) (by rw [← ho']) [0] hsel
  obtain ⟨hpk, -⟩ := hpk 0 0 ([0, 1, 2, 3], 100) rfl (by rw [hres]; rfl)
  rw [hf, hg, hid, List.map_id, hps] at hpk
  have hshown : drawnParticles choose pick 1 o 0 =
      some [![-1, 5, 5], ![1, 5, 5], ![1, 5, 5], ![1, 5, 5]] := by
    obtain ⟨shown, h1, h2⟩ := drawnParticles_eq choose pick 1 1 1 faceXyz [100, 1, 1, 1] 20
      [([0, 1, 2, 3], 100)] 4 face_sensible o (by rw [← ho', hf]) (by rw [← ho', hg]) (by rw [← ho'])
      (by rw [← ho']) 0 ([0, 1, 2, 3], 100) (by rw [hres]; rfl)
    rw [h1, h2 (by rw [hps]; simp), hobox, hid, List.map_id, hps]
    unfold Api.unwrapped
    simp only [List.map_cons, List.map_nil, List.length_cons, List.length_nil, Nat.reduceAdd, hunw,
      List.zipWith_cons_cons, List.zipWith_nil_left, mul_one]
  have hdraw : ∀ figs, VizShapes cc sol choose pick limit o ⟨[1], 1 / 10, 100, 4, false, false⟩ false [0]
      (.ok figs) → ∀ fig : Figure, figs[0]? = some fig →
        fig.particles.map (fun p => p 0) = ([-1, 1, 1, 1] : List ℝ) ∧
        weightedMean (List.zipWith (fun (x : Vec ℝ) m => ⟨x, m⟩) fig.particles [100, 1, 1, 1]) 0 = -97 / 103 ∧
        fig.centre 0 = 20 - 97 / 103 := by
    intro figs hruns fig hfig0
    obtain ⟨res, parts', centers, hc1, hc2, hc3, hk⟩ := viz_inv _ _ _ _ _ _ _ _ _ _ hruns
    obtain ⟨z, row, v, shown, hz, hrow, hv, hsh, hfig⟩ := hk 0 fig hfig0
    obtain rfl : (0 : Int) = z := Option.some.inj hz
    rw [hfo, show (0 : Int).toNat = 0 from rfl, hshown] at hsh
    obtain rfl := Option.some.inj hsh
    rw [hsp] at hc2
    obtain rfl := Except.ok.inj hc2
    obtain ⟨w, hw1, hw2⟩ := (mapM_some_get _ _ _ hc3).2 0 _ hpk
    rw [hobox, show o.center = .com by rw [← ho']] at hw2
    have hw := hcentre w hw2
    have hv0 : v 0 = 20 - 97 / 103 := by
      unfold recentreObject at hv
      rw [List.getElem?_map, hw1] at hv
      rw [← Option.some.inj hv, hobox]
      show recentreAxis 20 (w 0) = _
      rw [hw]
      norm_num [recentreAxis]
    simp only [Bool.false_eq_true, if_false] at hfig
    have hne : row ≠ [] := by
      rintro rfl
      simp [localFigure, pyIndex] at hfig
    obtain ⟨fig', e', h1, h2, h3, h4, h5⟩ := localFigure_exists row hne (fun a => v a * (mpch cc.h / cc.outL))
      [![-1, 5, 5], ![1, 5, 5], ![1, 5, 5], ![1, 5, 5]]
    rw [hfig] at h1
    obtain rfl := Option.some.inj h1
    rw [h3, h4]
    refine ⟨by simp, by norm_num [weightedMean, totalMass], ?_⟩
    show v 0 * (mpch cc.h / cc.outL) = _
    rw [hfo, mul_one, hv0]
  have hgen : ∃ fig, out = .ok [fig] := by
    cases hrun with
    | failed e hcat' =>
      obtain ⟨_, h1⟩ := hcat _ hcat'
      cases h1
    | drawn res hres' parts' hp centers hcen l m hu out hout =>
      obtain ⟨e, he⟩ := hcat _ hres'
      obtain rfl := Except.ok.inj he
      rw [hsp] at hp
      obtain rfl := Except.ok.inj hp
      obtain ⟨w, hw1, -⟩ := (mapM_some_get _ _ _ hcen).2 0 _ hpk
      have hclen : centers.length = 1 := (mapM_some_get _ _ _ hcen).1.trans hplen
      clear hw1 hcen
      match centers, hclen with
      | [w], _ =>
        rw [internalLM_eq] at hu
        obtain ⟨rfl, rfl⟩ := Prod.mk.inj (Except.ok.inj hu)
        obtain ⟨fig, e', h1, -⟩ := localFigure_exists [e] (by simp)
          (fun a => recentreAxis o.box (w a) * (mpch cc.h / cc.outL))
          [![-1, 5, 5], ![1, 5, 5], ![1, 5, 5], ![1, 5, 5]]
        refine ⟨fig, ?_⟩
        rw [hout]
        simp only [recentreObject, List.map_cons, List.map_nil, List.zip_cons_cons, List.zip_nil_left,
          List.mapM_cons, List.mapM_nil, Bool.false_eq_true, if_false, Int.toNat_zero, hfo, hshown,
          Option.bind_some]
        rw [hfo] at h1
        rw [h1]
        rfl
  obtain ⟨fig, rfl⟩ := hgen
  exact ⟨fig, rfl, hdraw _ hrun fig rfl⟩

/-- The objects of the refutations exist. -/
example (c : Cfg ℝ) : (∃ o, construct c ⟨crossXyz, [1, 1, 1, 1, 1, 1],
    .nested [[0, 1, 2, 3, 4, 5]], .array [100], 20, 6, .com⟩ = .ok o) ∧
    ∃ o, construct c ⟨faceXyz, [100, 1, 1, 1], .nested [[0, 1, 2, 3]], .array [100], 20, 4, .com⟩ = .ok o :=
  ⟨⟨_, construct_eq c crossXyz [1, 1, 1, 1, 1, 1] 20 [([0, 1, 2, 3, 4, 5], 100)] 6 .com rfl (by simp)⟩,
    ⟨_, construct_eq c faceXyz [100, 1, 1, 1] 20 [([0, 1, 2, 3], 100)] 4 .com rfl (by simp)⟩⟩

/-- Axes without a zero component: what the theorem says of the ellipsoid is not empty. -/
example : Orthonormal ![2 / 3, 2 / 3, 1 / 3] ![-2 / 3, 1 / 3, 2 / 3] ![1 / 3, -2 / 3, 2 / 3] ∧
    ∃ e : ShapeEntry, ∀ centre, ShowsEllipsoid (drawEllipsoid e centre) centre ![2 / 3, 2 / 3, 1 / 3]
      ![-2 / 3, 1 / 3, 2 / 3] ![1 / 3, -2 / 3, 2 / 3] 2 (1 / 2 * 2) (1 / 4 * 2) := by
  have ho : Orthonormal ![2 / 3, 2 / 3, 1 / 3] ![-2 / 3, 1 / 3, 2 / 3] ![1 / 3, -2 / 3, 2 / 3] := by
    refine ⟨?_, ?_, ?_, ?_, ?_, ?_⟩ <;> norm_num [dot, Matrix.cons_val_two]
  exact ⟨ho, ⟨some 2, some (1 / 2), some (1 / 4), true, fun i => some ((![2 / 3, 2 / 3, 1 / 3] : Vec ℝ) i),
    fun i => some ((![-2 / 3, 1 / 3, 2 / 3] : Vec ℝ) i), fun i => some ((![1 / 3, -2 / 3, 2 / 3] : Vec ℝ) i)⟩,
    fun centre => drawEllipsoid_shows _ centre _ _ _ _ _ _ rfl rfl rfl rfl rfl rfl ho (by norm_num) (by norm_num)
      (by norm_num)⟩

end Verif.Api
