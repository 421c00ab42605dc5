import Verif.Api.Ell

/-!
# Ellipsoidal density profiles of objects made from arrays (C112)
-/

namespace Verif.Api

open Verif.Units Verif.Catalogue Verif.Periodic Verif.Binning Verif.Par

/-! ## The selected particles -/

theorem particlesOf_replicate (xyz : List (Vec ℝ)) (masses : List ℝ)
    (hlen : xyz.length = masses.length) (n i : Nat) (hi : i < xyz.length) :
    ∃ q : Particle ℝ, q.pos ∈ xyz ∧ q.mass ∈ masses ∧
      particlesOf xyz masses (List.replicate n i) = List.replicate n q := by
  refine ⟨⟨xyz[i], masses[i]'(by omega)⟩, List.getElem_mem _, List.getElem_mem _, ?_⟩
  unfold particlesOf
  induction n with
  | zero => rfl
  | succ n ih =>
    rw [List.replicate_succ, List.filterMap_cons, ih]
    rw [List.getElem?_eq_getElem hi, List.getElem?_eq_getElem (by omega : i < masses.length)]
    rfl

/-- Every object the loops work with consists of copies of one particle. -/
theorem selectEll_eq (f g : ℝ) (xyz : List (Vec ℝ)) (masses : List ℝ) (box : ℝ)
    (objs : List (List Nat × ℝ)) (minPtcs : Int) (hmin : 1 ≤ minPtcs)
    (hs : Sensible xyz masses box objs) (o : Obj)
    (hx : o.xyz = xyz.map fun p a => p a * f) (hm : o.masses = masses.map fun x => x * g)
    (hcat : o.idxCat = ((resolved minPtcs objs).map Prod.fst).flatten)
    (hsizes : o.sizes = (resolved minPtcs objs).map fun o => o.1.length)
    (sel : List Int) (hsel : GoodSelection sel (resolved minPtcs objs).length) :
    ∃ parts, selectEll o sel = .ok parts ∧ parts.length = sel.length ∧
      ∀ (k : Nat) (z : Int) (obj : List Nat × ℝ), sel[k]? = some z →
        (resolved minPtcs objs)[z.toNat]? = some obj →
        obj.1 ≠ [] ∧ ∃ q : Particle ℝ, q.pos ∈ xyz ∧ q.mass ∈ masses ∧
          parts[k]? = some (List.replicate obj.1.length (scale f g q)) := by
  set lists := (resolved minPtcs objs).map Prod.fst with hlists
  have hsizes' : o.sizes = lists.map List.length := by rw [hsizes, hlists, List.map_map]; rfl
  have hlenlists : lists.length = (resolved minPtcs objs).length := by rw [hlists, List.length_map]
  have hex : ∀ l ∈ lists, ∀ i ∈ l, i < xyz.length := by
    intro l hl
    obtain ⟨ob, hob, rfl⟩ := List.mem_map.1 hl
    exact hs.exist ob (List.mem_of_mem_filter hob)
  have hne : ∀ l ∈ lists, l ≠ [] := by
    intro l hl
    obtain ⟨ob, hob, rfl⟩ := List.mem_map.1 hl
    have := (List.mem_filter.1 hob).2
    rintro h0
    rw [h0] at this
    simp at this
    omega
  obtain ⟨chosen, hc, hcl⟩ := toNat_map_getElem lists sel fun z hz => by
    rw [hlenlists]; exact hsel.2.2 z hz
  have hmem : ∀ idx ∈ chosen, idx ∈ lists := by
    intro idx hidx
    have : some idx ∈ chosen.map some := List.mem_map_of_mem hidx
    rw [← hc] at this
    obtain ⟨i, -, hi⟩ := List.mem_map.1 this
    exact List.mem_of_getElem? hi
  obtain ⟨vs, hvl, hused⟩ := C33_particles_replaced_refuted chosen fun o ho => hne o (hmem o ho)
  -- the numbers written are particle numbers of the catalogue
  have hmemIter : ∀ (rest : List Nat) (l : List Nat) (p0 off : Nat) (used : List Nat),
      overwriteLoop l p0 off rest = some used → ∀ v ∈ used, v ∈ l := by
    intro rest
    induction rest with
    | nil => intro l p0 off used h v hv; simp [overwriteLoop] at h; rwa [h]
    | cons n rest ih =>
      intro l p0 off used h v hv
      simp only [overwriteLoop] at h
      cases hl : l[p0]? with
      | none => rw [hl] at h; cases h
      | some w =>
        rw [hl] at h
        have := ih _ _ _ _ h v hv
        unfold fillSlice at this
        obtain ⟨xi, hxi, rfl⟩ := List.mem_map.1 this
        split
        · exact List.mem_of_getElem? hl
        · exact (List.of_mem_zip (List.zipIdx_eq_zip_range' ▸ hxi)).1
  have hvs : ∀ v ∈ vs, v < xyz.length := by
    intro v hv
    obtain ⟨k, hk⟩ := List.mem_iff_getElem?.1 hv
    have hklt : k < chosen.length := by rw [← hvl]; exact (List.getElem?_eq_some_iff.1 hk).1
    have hin : v ∈ (List.zipWith (fun o v => List.replicate o.length v) chosen vs).flatten := by
      rw [List.mem_flatten]
      refine ⟨List.replicate chosen[k].length v, ?_, ?_⟩
      · apply List.mem_of_getElem? (i := k)
        rw [List.getElem?_zipWith, List.getElem?_eq_getElem hklt, hk]
      · rw [List.mem_replicate]
        exact ⟨fun h0 => hne _ (hmem _ (List.getElem_mem hklt)) (List.length_eq_zero_iff.1 h0), rfl⟩
    have := hmemIter _ _ _ _ _ hused v hin
    obtain ⟨l, hl, hvl⟩ := List.mem_flatten.1 this
    exact hex l (hmem l hl) v hvl
  set fill := List.zipWith (fun (o : List Nat) (v : Nat) => List.replicate o.length v) chosen vs with hfill
  have hfl : fill.length = chosen.length := by rw [hfill, List.length_zipWith, hvl, min_self]
  have hfs : chosen.map List.length = fill.map List.length := by
    apply List.ext_getElem?
    intro k
    rw [List.getElem?_map, List.getElem?_map, hfill, List.getElem?_zipWith]
    by_cases hk : k < chosen.length
    · rw [List.getElem?_eq_getElem hk, List.getElem?_eq_getElem (by omega : k < vs.length)]
      simp
    · rw [List.getElem?_eq_none (by omega : chosen.length ≤ k)]
  have hfex : ∀ l ∈ fill, ∀ i ∈ l, i < xyz.length := by
    intro l hl i hi
    obtain ⟨k, hk⟩ := List.mem_iff_getElem?.1 hl
    rw [hfill, List.getElem?_zipWith_eq_some] at hk
    obtain ⟨a, v, -, hv, rfl⟩ := hk
    rw [(List.mem_replicate.1 hi).2]
    exact hvs v (List.mem_of_getElem? hv)
  have hsp : selectEll o sel =
      .ok (fill.map fun idx => (particlesOf xyz masses idx).map (scale f g)) := by
    unfold selectEll
    rw [accept_good sel _ (by rw [hsizes', List.length_map, hlenlists]; exact hsel)]
    simp only
    rw [hcat, hsizes', (C17_subselection lists _ chosen hc).1,
      fancy_eq_some (lists.map List.length) _ (chosen.map List.length) ?_]
    · simp only
      rw [hused]
      simp only
      rw [mapM_range_eq _ _ (fill.map fun idx => (particlesOf xyz masses idx).map (scale f g))
        (by simp [hfl])]
      intro k a hk
      rw [List.getElem?_map] at hk
      obtain ⟨idx, hidx, rfl⟩ := Option.map_eq_some_iff.1 hk
      rw [hfs, objSlice_eq fill k idx hidx, Option.bind_some]
      exact gather_eq o xyz masses f g hx hm hs.lengths idx (hfex idx (List.mem_of_getElem? hidx))
    · have := congrArg (List.map (Option.map List.length)) hc
      simp only [List.map_map] at this ⊢
      rw [show (fun x => x.map List.length) ∘ (fun x : Nat => lists[x]?) ∘ Int.toNat =
        (fun x : Nat => (lists.map List.length)[x]?) ∘ Int.toNat by
          funext z; simp [List.getElem?_map]] at this
      rw [this]
      rfl
  refine ⟨_, hsp, by simp [hfl, hcl], ?_⟩
  intro k z obj hk hobj
  have hck : chosen[k]? = some obj.1 := by
    have := congrArg (fun l => l[k]?) hc
    simp only [List.getElem?_map, hk, Option.map_some, hlists, hobj] at this
    cases hx : chosen[k]? with
    | none => simp [hx] at this
    | some x => simp [hx] at this; rw [this]
  have hklt : k < vs.length := by
    rw [hvl]; exact (List.getElem?_eq_some_iff.1 hck).1
  refine ⟨hne _ (hmem _ (List.mem_of_getElem? hck)), ?_⟩
  obtain ⟨q, hq1, hq2, hq3⟩ := particlesOf_replicate xyz masses hs.lengths obj.1.length vs[k]
    (hvs _ (List.getElem_mem hklt))
  refine ⟨q, hq1, hq2, ?_⟩
  rw [List.getElem?_map, hfill, List.getElem?_zipWith, hck, List.getElem?_eq_getElem hklt]
  simp only [Option.map_some, hq3, List.map_replicate]

/-! ## Copies of one particle -/

theorem weightedMean_copies (q : Particle ℝ) (hq : q.mass ≠ 0) (n : Nat) (hn : n ≠ 0) :
    weightedMean (List.replicate n q) = q.pos := by
  funext i
  unfold weightedMean totalMass
  have : (n : ℝ) ≠ 0 := by exact_mod_cast hn
  simp
  field_simp

theorem notCrossing_copies (L : ℝ) (hL : 0 < L) (q : Particle ℝ) (n : Nat) :
    NotCrossing L (List.replicate n q) := by
  intro p hp p' hp' a
  rw [(List.mem_replicate.1 hp).2, (List.mem_replicate.1 hp').2]
  simp; linarith

theorem centre_copies (choose : Nat → List Nat) (hch : ∀ n, 0 < n → ∃ j ∈ choose n, j < n)
    (limit : Nat) (L : ℝ) (hL : 0 < L) (center : Center) (q : Particle ℝ)
    (hbox : ∀ a, 0 ≤ q.pos a ∧ q.pos a < L) (hm : 0 < q.mass) (n : Nat) (hn : n ≠ 0) (v : Vec ℝ)
    (h : centreOf choose limit L center (List.replicate n q) = some v) : v = q.pos := by
  have hchk := hch (List.replicate n q).length (by simp; omega)
  obtain ⟨⟨sub, h1, h2, -, rfl⟩, -⟩ := centre_spec choose limit L hL center (List.replicate n q)
    (by simpa using hn) (by intro p hp; rw [(List.mem_replicate.1 hp).2]; exact hbox)
    (by intro p hp; rw [(List.mem_replicate.1 hp).2]; exact hm) hchk v h
  rw [unwrapped_of_notCrossing choose L hL _ hchk (notCrossing_copies L hL q n)] at h1
  obtain ⟨m, -, rfl⟩ := List.sublist_replicate_iff.1 h1
  exact weightedMean_copies q hm.ne' m (by simpa using h2)

theorem densProfEll_copies (q : Particle ℝ) (n : Nat) (bins : List (Frame × Axes × Axes))
    (shell : List Nat) (hl : n ≤ shell.length) :
    (densProfEll (List.replicate n q) q.pos bins shell).1 = List.replicate bins.length none := by
  rw [densProfEll_eq _ _ _ _ (by simpa using hl)]
  rw [List.eq_replicate_iff]
  refine ⟨by simp, ?_⟩
  intro d hd
  obtain ⟨b, -, rfl⟩ := List.mem_map.1 hd
  rw [if_neg]
  simp only [ne_eq, not_not, List.length_eq_zero_iff, List.filter_eq_nil_iff]
  intro p hp
  rw [(List.mem_replicate.1 hp).2]
  simp [qEll, level, component]

/-! ## The parallel loop -/

theorem densProfEll_shell_length (ps : List (Particle ℝ)) (center : Vec ℝ)
    (bins : List (Frame × Axes × Axes)) (shell : List Nat) :
    (densProfEll ps center bins shell).2.length = shell.length := by
  unfold densProfEll
  have : ∀ (l : List (Frame × Axes × Axes)) (st : List (Option ℝ) × List Nat),
      (l.foldl (fun st bin =>
        ((st.1 ++ [if (scan (inEll ps center bin.1 bin.2.1 bin.2.2) ps.length st.2).pts ≠ 0 then
          some (accumulate ps (scan (inEll ps center bin.1 bin.2.1 bin.2.2) ps.length st.2) fun m =>
            m / (4 / 3 * Real.pi * bin.2.2.a * bin.2.2.b * bin.2.2.c -
              4 / 3 * Real.pi * bin.2.1.a * bin.2.1.b * bin.2.1.c)) else none],
          (scan (inEll ps center bin.1 bin.2.1 bin.2.2) ps.length st.2).shell) :
            List (Option ℝ) × List Nat)) st).2.length = st.2.length := by
    intro l
    induction l with
    | nil => intro st; rfl
    | cons r l ih =>
      intro st
      rw [List.foldl_cons, ih]
      exact scan_shell_length _ _ _
  exact this bins _

open Classical in
/-- Each row is that of the object alone, whatever the schedule and the scratch memory (copies of one
particle). -/
theorem ellRows (L : ℝ) (hL : 0 < L) (data : List EllData) (largest : Nat)
    (hcopies : ∀ d ∈ data, ∃ (n : Nat) (q : Particle ℝ), d.particles = List.replicate n q ∧
      d.center = q.pos ∧ n ≤ largest)
    (ws : List (Step Nat Nat DensScratch (Option (List (Option ℝ)))))
    (ex : Execution (fun p => (data[p]?.map (ellBody L)).getD []) (List.range data.length) ws)
    (p : Nat) (d : EllData) (hp : data[p]? = some d) :
    (runSteps ws ⟨fun _ => ⟨List.replicate largest 0, List.replicate largest 0,
      List.replicate largest 0⟩, fun _ => some []⟩).out p =
      if DivisionByZero d.particles d.center d.bins then none
      else some (List.replicate d.bins.length none) := by
  have hlt : p < data.length := (List.getElem?_eq_some_iff.1 hp).1
  have := (execution_result _ _ ws ex ⟨fun _ => ⟨List.replicate largest 0, List.replicate largest 0,
      List.replicate largest 0⟩, fun _ => some []⟩
    (fun s => s.xyz.length = largest ∧ s.m.length = largest ∧ s.shell.length = largest) (by simp)
    (fun p => (data[p]?.map fun d => if DivisionByZero d.particles d.center d.bins then none
      else some (List.replicate d.bins.length none)).getD none) ?_).1 p (by simpa using hlt)
  · rw [this, hp]; rfl
  · intro k hk s hs
    have hk : k < data.length := by simpa using hk
    obtain ⟨d, hd⟩ : ∃ d, data[k]? = some d := ⟨_, List.getElem?_eq_getElem hk⟩
    obtain ⟨n, q, hps, hcen, hn⟩ := hcopies d (List.mem_of_getElem? hd)
    have hsize : d.particles.length ≤ largest := by rw [hps]; simpa using hn
    simp only [hd, Option.map_some, Option.getD_some]
    unfold ellBody
    have hsplit : ∀ (a b : List (Action DensScratch (Option (List (Option ℝ))))) x,
        runBody (a ++ b) x = runBody b (runBody a x) := by
      intro a b x; simp [runBody, List.foldl_append]
    rw [hsplit, foldl_gather d.particles 0 s _ (by omega) (by omega)]
    simp only [runBody, List.foldl_cons, List.foldl_nil, List.take_zero, List.nil_append]
    have h1 : ((d.particles.map fun p => p.pos) ++ s.xyz.drop (0 + d.particles.length)).take
        d.particles.length = d.particles.map fun p => p.pos := by
      rw [List.take_append_of_le_length (by simp)]; simp
    have h2 : ((d.particles.map fun p => p.mass) ++ s.m.drop (0 + d.particles.length)).take
        d.particles.length = d.particles.map fun p => p.mass := by
      rw [List.take_append_of_le_length (by simp)]; simp
    rw [h1, h2]
    have h3 : ∀ rest, (cyRespectPBCNoRef (d.particles.map fun p => p.pos) L ++ rest).take
        d.particles.length = cyRespectPBCNoRef (d.particles.map fun p => p.pos) L := by
      intro rest
      rw [List.take_append_of_le_length (by simp [cyRespect_length])]
      rw [List.take_of_length_le (by simp [cyRespect_length])]
    have hnc : NotCrossing L d.particles := by rw [hps]; exact notCrossing_copies L hL q n
    rw [h3, cy_of_notCrossing L hL _ hnc]
    have hx : (cyRespectPBCNoRef (d.particles.map fun p => p.pos) L ++
        ((d.particles.map fun p => p.pos) ++ s.xyz.drop (0 + d.particles.length)).drop
          d.particles.length).length = largest := by
      simp [cyRespect_length]; omega
    have hm : ((d.particles.map fun p => p.mass) ++ s.m.drop (0 + d.particles.length)).length =
        largest := by simp; omega
    by_cases hdz : DivisionByZero d.particles d.center d.bins
    · simp only [if_pos hdz]
      exact ⟨⟨hx, hm, hs.2.2⟩, trivial⟩
    · simp only [if_neg hdz]
      refine ⟨⟨hx, hm, ?_⟩, ?_⟩
      · rw [densProfEll_shell_length]; exact hs.2.2
      · rw [hps, hcen, densProfEll_copies q n _ _ (by omega)]

/-! ## C112 -/

/-- The objects the loops work with. -/
theorem ell_setup (c : Cfg ℝ) (hc : c.Pos) (xyz : List (Vec ℝ)) (masses : List ℝ) (box : ℝ)
    (objs : List (List Nat × ℝ)) (minPtcs : Int) (hmin : 1 ≤ minPtcs) (center : Center)
    (hs : Sensible xyz masses box objs) (o : Obj)
    (ho : construct c ⟨xyz, masses, .nested (objs.map Prod.fst), .array (objs.map Prod.snd), box,
      minPtcs, center⟩ = .ok o)
    (sel : List Int) (hsel : GoodSelection sel (resolved minPtcs objs).length) :
    0 < o.box ∧ o.center = center ∧
    ∃ parts, selectEll o sel = .ok parts ∧ parts.length = sel.length ∧
      ∀ (k : Nat) (z : Int) (obj : List Nat × ℝ), sel[k]? = some z →
        (resolved minPtcs objs)[z.toNat]? = some obj →
        obj.1 ≠ [] ∧ ∃ q : Particle ℝ, (∀ a, 0 ≤ q.pos a ∧ q.pos a < o.box) ∧ 0 < q.mass ∧
          parts[k]? = some (List.replicate obj.1.length q) := by
  have ho := Except.ok.inj ((construct_eq c xyz masses box objs minPtcs center hs.lengths
    hs.objects).symm.trans ho)
  have hfp : 0 < c.inL / mpch c.h := div_pos hc.inL (mpch_pos hc.h)
  have hgp : 0 < c.inM / msunh10 c.h := div_pos hc.inM (msunh10_pos hc.h)
  have hobox : o.box = box * (c.inL / mpch c.h) := by rw [← ho]
  refine ⟨by rw [hobox]; exact mul_pos hs.box_pos hfp, by rw [← ho], ?_⟩
  obtain ⟨parts, h1, h2, h3⟩ := selectEll_eq (c.inL / mpch c.h) (c.inM / msunh10 c.h) xyz masses box
    objs minPtcs hmin hs o (by rw [← ho]) (by rw [← ho]) (by rw [← ho]) (by rw [← ho]) sel hsel
  refine ⟨parts, h1, h2, ?_⟩
  intro k z obj hk hobj
  obtain ⟨h4, q, h5, h6, h7⟩ := h3 k z obj hk hobj
  refine ⟨h4, scale _ _ q, ?_, mul_pos (hs.masses_pos _ h6) hgp, h7⟩
  intro a
  have := hs.inside _ h5 a
  rw [hobox]
  exact ⟨mul_nonneg this.1 hfp.le, mul_lt_mul_of_pos_right this.2 hfp⟩

/-- C112 is false for all data: take sensible data, make an object of it and ask for ellipsoidal density
profiles of a good selection.  Whatever the shapes, the radii and the schedule of the parallel loop, if
the call returns at all, it returns NaN for every object and every radius. -/
theorem C112_all_nan_refuted (c c' : Cfg ℝ) (hc : c.Pos)
    (xyz : List (Vec ℝ)) (masses : List ℝ) (box : ℝ) (objs : List (List Nat × ℝ)) (minPtcs : Int)
    (hmin : 1 ≤ minPtcs) (center : Center) (hs : Sensible xyz masses box objs)
    (choose : Nat → List Nat) (hch : ∀ n, 0 < n → ∃ j ∈ choose n, j < n) (limit : Nat) (o : Obj)
    (ho : construct c ⟨xyz, masses, .nested (objs.map Prod.fst), .array (objs.map Prod.snd), box,
      minPtcs, center⟩ = .ok o)
    (radii : List ℝ) (sel : List Int) (hsel : GoodSelection sel (resolved minPtcs objs).length)
    (res : List (List (Option ℝ))) (hrun : EstDensProfsEll c' choose limit o radii sel (.ok res)) :
    res = List.replicate sel.length (List.replicate radii.length none) := by
  obtain ⟨hbox, hcen, parts', hsp, hplen, hparts⟩ := ell_setup c hc xyz masses box objs minPtcs hmin
    center hs o ho sel hsel
  cases hrun with
  | finished parts h hr centers hc bins hb data hd largest hl ws ex rows out hrows hout =>
    rw [hsp] at h
    obtain rfl := Except.ok.inj h
    have hpart : ∀ (k : Nat) (ps : List (Particle ℝ)), parts'[k]? = some ps →
        ∃ (n : Nat) (q : Particle ℝ), ps = List.replicate n q ∧ n ≠ 0 ∧
        (∀ a, 0 ≤ q.pos a ∧ q.pos a < o.box) ∧ 0 < q.mass := by
      intro k ps hk
      have hklt : k < sel.length := by rw [← hplen]; exact (List.getElem?_eq_some_iff.1 hk).1
      obtain ⟨z, hzk⟩ : ∃ z, sel[k]? = some z := ⟨_, List.getElem?_eq_getElem hklt⟩
      have hz := hsel.2.2 z (List.mem_of_getElem? hzk)
      have hzlt : z.toNat < (resolved minPtcs objs).length := by omega
      obtain ⟨obj, hob⟩ : ∃ obj, (resolved minPtcs objs)[z.toNat]? = some obj :=
        ⟨_, List.getElem?_eq_getElem hzlt⟩
      obtain ⟨h1, q, h2, h3, h4⟩ := hparts k z obj hzk hob
      rw [hk] at h4
      refine ⟨_, q, Option.some.inj h4, ?_, h2, h3⟩
      rwa [ne_eq, List.length_eq_zero_iff]
    have hclen := (mapM_some_get _ _ _ hc).1
    have hdata : ∀ (k : Nat) (d : EllData), data[k]? = some d →
        ∃ (n : Nat) (q : Particle ℝ), d.particles = List.replicate n q ∧
        d.center = q.pos ∧ n ≤ largest ∧ d.bins.length = radii.length := by
      intro k d hk
      rw [hd, List.getElem?_zipWith_eq_some] at hk
      obtain ⟨pc, b, h1, h2, rfl⟩ := hk
      obtain ⟨h3, h4⟩ := List.getElem?_zip_eq_some.1 h1
      obtain ⟨n, q, h5, h6, h7, h8⟩ := hpart k _ h3
      obtain ⟨v, h9, h10⟩ := (mapM_some_get _ _ _ hc).2 k _ h3
      rw [h4] at h9
      refine ⟨n, q, h5, ?_, ?_, hb.2 b (List.mem_of_getElem? h2)⟩
      · rw [h5] at h10
        have := centre_copies choose hch limit o.box hbox o.center q h7 h8 n h6 v h10
        rw [← this]; exact Option.some.inj h9
      · have := hl _ (List.mem_of_getElem? h3)
        rw [h5] at this; simpa using this
    have hdlen : data.length = parts'.length := by
      rw [hd]; simp [hclen, hb.1]
    rw [List.eq_replicate_iff]
    refine ⟨?_, ?_⟩
    · rw [(mapM_some_get _ _ _ hout).1, (mapM_some_get _ _ _ hrows).1]; simp [hplen]
    · intro row hrow
      obtain ⟨k, hk⟩ := List.mem_iff_getElem?.1 hrow
      have hklt : k < parts'.length := by
        have := (List.getElem?_eq_some_iff.1 hk).1
        rw [(mapM_some_get _ _ _ hout).1, (mapM_some_get _ _ _ hrows).1] at this
        simpa using this
      obtain ⟨raw, h1, h2⟩ := (mapM_some_get _ _ _ hrows).2 k k (List.getElem?_range hklt)
      obtain ⟨row', h3, h4⟩ := (mapM_some_get _ _ _ hout).2 k raw h1
      rw [hk] at h3
      obtain rfl := Option.some.inj h3
      obtain ⟨d, hdk⟩ : ∃ d, data[k]? = some d :=
        ⟨_, List.getElem?_eq_getElem (by rw [hdlen]; exact hklt)⟩
      rw [ellRows o.box hbox data largest (by
        intro d hd
        obtain ⟨i, hi⟩ := List.mem_iff_getElem?.1 hd
        obtain ⟨n, q, h1, h2, h3, -⟩ := hdata i d hi
        exact ⟨n, q, h1, h2, h3⟩) ws ex k d hdk] at h2
      obtain ⟨-, -, -, -, -, hbl⟩ := hdata k d hdk
      split at h2
      · cases h2
      · have h2 := Option.some.inj h2
        subst h2
        unfold ellOut at h4
        rw [internalLM_eq] at h4
        have h4 := Option.some.inj h4
        rw [← h4, List.map_replicate, hbl]
        rfl

/-- C112 (partial). A result has one row per selected object and one column per radius.  Missing: that
the entries are densities (`C112_all_nan_refuted`: they are NaN). -/
theorem C112_sizes_partial (c c' : Cfg ℝ) (hc : c.Pos)
    (xyz : List (Vec ℝ)) (masses : List ℝ) (box : ℝ) (objs : List (List Nat × ℝ)) (minPtcs : Int)
    (hmin : 1 ≤ minPtcs) (center : Center) (hs : Sensible xyz masses box objs)
    (choose : Nat → List Nat) (hch : ∀ n, 0 < n → ∃ j ∈ choose n, j < n) (limit : Nat) (o : Obj)
    (ho : construct c ⟨xyz, masses, .nested (objs.map Prod.fst), .array (objs.map Prod.snd), box,
      minPtcs, center⟩ = .ok o)
    (radii : List ℝ) (sel : List Int) (hsel : GoodSelection sel (resolved minPtcs objs).length)
    (res : List (List (Option ℝ))) (hrun : EstDensProfsEll c' choose limit o radii sel (.ok res)) :
    res.length = sel.length ∧ ∀ row ∈ res, row.length = radii.length := by
  rw [C112_all_nan_refuted c c' hc xyz masses box objs minPtcs hmin center hs choose hch limit o ho
    radii sel hsel res hrun]
  refine ⟨by simp, fun row hrow => ?_⟩
  rw [(List.mem_replicate.1 hrow).2]; simp

/-- Unit balls in every bin. -/
def unitBins (n : Nat) : List (Frame × Axes × Axes) :=
  List.replicate n (⟨![1, 0, 0], ![0, 1, 0], ![0, 0, 1]⟩, ⟨1, 1, 1⟩, ⟨2, 2, 2⟩)

/-- With `CENTER = 'com'` and at least three radii the call does return, so `C112_all_nan_refuted` is not
vacuous: for all sensible data and good selections. -/
theorem C112_returns (c c' : Cfg ℝ) (hc : c.Pos)
    (xyz : List (Vec ℝ)) (masses : List ℝ) (box : ℝ) (objs : List (List Nat × ℝ)) (minPtcs : Int)
    (hmin : 1 ≤ minPtcs) (hs : Sensible xyz masses box objs)
    (choose : Nat → List Nat) (hch : ∀ n, 0 < n → ∃ j ∈ choose n, j < n) (limit : Nat) (o : Obj)
    (ho : construct c ⟨xyz, masses, .nested (objs.map Prod.fst), .array (objs.map Prod.snd), box,
      minPtcs, .com⟩ = .ok o)
    (radii : List ℝ) (hr : 3 ≤ radii.length)
    (sel : List Int) (hsel : GoodSelection sel (resolved minPtcs objs).length) :
    EstDensProfsEll c' choose limit o radii sel
      (.ok (List.replicate sel.length (List.replicate radii.length none))) := by
  suffices h : ∃ res, EstDensProfsEll c' choose limit o radii sel (.ok res) by
    obtain ⟨res, h⟩ := h
    rwa [C112_all_nan_refuted c c' hc xyz masses box objs minPtcs hmin .com hs choose hch limit o ho
      radii sel hsel res h] at h
  obtain ⟨hbox, hcen, parts, hsp, hplen, hparts⟩ := ell_setup c hc xyz masses box objs minPtcs hmin
    .com hs o ho sel hsel
  have hpart : ∀ (k : Nat) (ps : List (Particle ℝ)), parts[k]? = some ps →
      ∃ (n : Nat) (q : Particle ℝ), ps = List.replicate n q ∧ n ≠ 0 ∧
      (∀ a, 0 ≤ q.pos a ∧ q.pos a < o.box) ∧ 0 < q.mass := by
    intro k ps hk
    have hklt : k < sel.length := by rw [← hplen]; exact (List.getElem?_eq_some_iff.1 hk).1
    obtain ⟨z, hzk⟩ : ∃ z, sel[k]? = some z := ⟨_, List.getElem?_eq_getElem hklt⟩
    have hz := hsel.2.2 z (List.mem_of_getElem? hzk)
    have hzlt : z.toNat < (resolved minPtcs objs).length := by omega
    obtain ⟨obj, hob⟩ : ∃ obj, (resolved minPtcs objs)[z.toNat]? = some obj :=
      ⟨_, List.getElem?_eq_getElem hzlt⟩
    obtain ⟨h1, q, h2, h3, h4⟩ := hparts k z obj hzk hob
    rw [hk] at h4
    refine ⟨_, q, Option.some.inj h4, ?_, h2, h3⟩
    rwa [ne_eq, List.length_eq_zero_iff]
  obtain ⟨centers, hcs⟩ := mapM_exists (centreOf choose limit o.box o.center) parts (by
    intro ps _
    rw [hcen]
    exact ⟨_, rfl⟩)
  have hclen := (mapM_some_get _ _ _ hcs).1
  set bins := List.replicate parts.length (unitBins radii.length) with hbins
  set data := List.zipWith (fun (pc : List (Particle ℝ) × Vec ℝ) b => (⟨pc.1, pc.2, b⟩ : EllData))
    (parts.zip centers) bins with hd
  set largest := (parts.map List.length).sum with hlargest
  have hl : ∀ ps ∈ parts, ps.length ≤ largest := fun ps hps =>
    List.single_le_sum (by simp) _ (List.mem_map_of_mem hps)
  have ex := Execution.oneThread (fun p => (data[p]?.map (ellBody o.box)).getD [])
    (List.range data.length) List.nodup_range (0 : Nat)
  generalize hws : threadSteps (fun p => (data[p]?.map (ellBody o.box)).getD []) (0 : Nat)
    (List.range data.length) = ws at ex
  have hdata : ∀ (k : Nat) (d : EllData), data[k]? = some d →
      d.bins = unitBins radii.length ∧ ∃ (n : Nat) (q : Particle ℝ), d.particles = List.replicate n q ∧
      d.center = q.pos ∧ n ≤ largest := by
    intro k d hk
    rw [hd, List.getElem?_zipWith_eq_some] at hk
    obtain ⟨pc, b, h1, h2, rfl⟩ := hk
    obtain ⟨h3, h4⟩ := List.getElem?_zip_eq_some.1 h1
    obtain ⟨n, q, h5, h6, h7, h8⟩ := hpart k _ h3
    obtain ⟨v, h9, h10⟩ := (mapM_some_get _ _ _ hcs).2 k _ h3
    rw [h4] at h9
    refine ⟨(List.mem_replicate.1 (List.mem_of_getElem? h2)).2, n, q, h5, ?_, ?_⟩
    · rw [h5] at h10
      have := centre_copies choose hch limit o.box hbox o.center q h7 h8 n h6 v h10
      rw [← this]; exact Option.some.inj h9
    · have := hl _ (List.mem_of_getElem? h3)
      rw [h5] at this; simpa using this
  have hdlen : data.length = parts.length := by
    rw [hd, hbins]; simp [hclen]
  obtain ⟨rows, hrows⟩ := mapM_exists (runSteps ws
      ⟨fun _ => ⟨List.replicate largest 0, List.replicate largest 0, List.replicate largest 0⟩,
        fun _ => some []⟩).out (List.range parts.length) (by
    intro k hk
    have hk : k < data.length := by rw [hdlen]; simpa using hk
    rw [ellRows o.box hbox data largest (by
        intro d hd
        obtain ⟨i, hi⟩ := List.mem_iff_getElem?.1 hd
        exact (hdata i d hi).2) ws ex k _ (List.getElem?_eq_getElem hk), if_neg]
    · exact ⟨_, rfl⟩
    · rintro ⟨bin, hbin, p, -, h⟩
      rw [(hdata k _ (List.getElem?_eq_getElem hk)).1] at hbin
      obtain rfl := (List.mem_replicate.1 hbin).2
      have e1 : (![1, 0, 0] : Vec ℝ) ≠ 0 := fun h => by simpa using congrFun h 0
      have e2 : (![0, 1, 0] : Vec ℝ) ≠ 0 := fun h => by simpa using congrFun h 1
      have e3 : (![0, 0, 1] : Vec ℝ) ≠ 0 := fun h => by simpa using congrFun h 2
      rcases h with h | h | h | h | h | h | ⟨-, h | h | h⟩ | ⟨-, -, h⟩
      · exact e1 h
      · exact e2 h
      · exact e3 h
      on_goal 7 => linarith [Real.pi_pos]
      all_goals norm_num at h)
  obtain ⟨out, hout⟩ := mapM_exists (fun row => (ellOut c' row).toOption) rows (by
      intro row _
      unfold ellOut
      rw [internalLM_eq]
      exact ⟨_, rfl⟩)
  exact ⟨out, .finished parts hsp hr centers hcs bins
    ⟨by rw [hbins]; simp, by intro b hb; rw [(List.mem_replicate.1 hb).2]; simp [unitBins]⟩
    data hd largest hl ws ex rows out hrows hout⟩

/-- With `CENTER = 'mode'` and at least three radii, the call raises RecursionError or fails earlier (while
it determines the shapes) if a selected object has five or more particles; RecursionError does occur. -/
theorem C112_mode_fails_refuted (c c' : Cfg ℝ) (hc : c.Pos)
    (xyz : List (Vec ℝ)) (masses : List ℝ) (box : ℝ) (objs : List (List Nat × ℝ)) (minPtcs : Int)
    (hmin : 1 ≤ minPtcs) (hs : Sensible xyz masses box objs)
    (choose : Nat → List Nat) (hch : ∀ n, 0 < n → ∃ j ∈ choose n, j < n) (limit : Nat) (o : Obj)
    (ho : construct c ⟨xyz, masses, .nested (objs.map Prod.fst), .array (objs.map Prod.snd), box,
      minPtcs, .mode⟩ = .ok o)
    (radii : List ℝ) (hr : 3 ≤ radii.length)
    (sel : List Int) (hsel : GoodSelection sel (resolved minPtcs objs).length)
    (z : Int) (hz : z ∈ sel) (obj : List Nat × ℝ) (hobj : (resolved minPtcs objs)[z.toNat]? = some obj)
    (h5 : 5 ≤ obj.1.length) (out : Except EllErr (List (List (Option ℝ)))) :
    EstDensProfsEll c' choose limit o radii sel out ↔
      out = .error .shapes ∨ out = .error (.base .recursion) := by
  obtain ⟨hbox, hcen, parts', hsp, hplen, hparts⟩ := ell_setup c hc xyz masses box objs minPtcs hmin
    .mode hs o ho sel hsel
  obtain ⟨k, hk⟩ := List.mem_iff_getElem?.1 hz
  obtain ⟨-, q, h2, h3, h4⟩ := hparts k z obj hk hobj
  have hnone : parts'.mapM (centreOf choose limit o.box o.center) = none := by
    rw [Option.eq_none_iff_forall_ne_some]
    intro centers hc
    obtain ⟨v, -, hv⟩ := (mapM_some_get _ _ _ hc).2 k _ h4
    have hchk := hch (List.replicate obj.1.length q).length (by simp; omega)
    have hun := unwrapped_of_notCrossing choose o.box hbox _ hchk
      (notCrossing_copies o.box hbox q obj.1.length)
    rw [hcen] at hv
    have hv' : calcMode limit (unwrapped choose o.box (List.replicate obj.1.length q)) 1000 = some v := hv
    rw [hun, C26_mode_diverges_refuted (List.replicate obj.1.length q) q.pos
      (by intro p hp; rw [(List.mem_replicate.1 hp).2]) (by simpa using h5) (by
        unfold totalMass
        have : (0 : ℝ) < obj.1.length := by exact_mod_cast (by omega : 0 < obj.1.length)
        simp only [List.map_replicate, List.sum_replicate, nsmul_eq_mul]
        positivity) 1000 (by norm_num) limit] at hv'
    cases hv'
  constructor
  · intro hrun
    cases hrun with
    | rejected e h => rw [hsp] at h; cases h
    | shapes => exact .inl rfl
    | fewRadii _ _ hr' => omega
    | diverges => exact .inr rfl
    | divides parts h hr centers hc =>
      rw [hsp] at h
      obtain rfl := Except.ok.inj h
      rw [hnone] at hc; cases hc
    | finished parts h hr centers hc =>
      rw [hsp] at h
      obtain rfl := Except.ok.inj h
      rw [hnone] at hc; cases hc
  · rintro (rfl | rfl)
    · exact .shapes parts' hsp
    · exact .diverges parts' hsp hr hnone

/-- With fewer than three radii the call always fails: it raises ValueError, or fails earlier while it
determines the shapes; for all sensible data and good selections. -/
theorem C112_few_radii (c c' : Cfg ℝ) (hc : c.Pos)
    (xyz : List (Vec ℝ)) (masses : List ℝ) (box : ℝ) (objs : List (List Nat × ℝ)) (minPtcs : Int)
    (hmin : 1 ≤ minPtcs) (center : Center) (hs : Sensible xyz masses box objs)
    (choose : Nat → List Nat) (limit : Nat) (o : Obj)
    (ho : construct c ⟨xyz, masses, .nested (objs.map Prod.fst), .array (objs.map Prod.snd), box,
      minPtcs, center⟩ = .ok o)
    (radii : List ℝ) (hr : radii.length < 3)
    (sel : List Int) (hsel : GoodSelection sel (resolved minPtcs objs).length)
    (out : Except EllErr (List (List (Option ℝ)))) :
    EstDensProfsEll c' choose limit o radii sel out ↔ out = .error .shapes ∨ out = .error .value := by
  obtain ⟨hbox, hcen, parts', hsp, -, -⟩ := ell_setup c hc xyz masses box objs minPtcs hmin
    center hs o ho sel hsel
  constructor
  · intro hrun
    cases hrun with
    | rejected e h => rw [hsp] at h; cases h
    | shapes => exact .inl rfl
    | fewRadii => exact .inr rfl
    | diverges _ _ hr' => omega
    | divides _ _ hr' => omega
    | finished _ _ hr' => omega
  · rintro (rfl | rfl)
    · exact .shapes parts' hsp
    · exact .fewRadii parts' hsp hr

/-- Three particles in a shell around (5, 5, 5): the profile is NaN, NaN, NaN. -/
example (c : Cfg ℝ) (hc : c.Pos) (limit : Nat) :
    ∃ o, construct c ⟨[![4, 5, 5], ![6, 5, 5], ![5, 6, (5 : ℝ)]], [1, 1, 1], .nested [[0, 1, 2]],
      .array [5], 10, 1, .com⟩ = .ok o ∧
    EstDensProfsEll c (fun _ => [0]) limit o [1 / 10, 1 / 2, 1] [0] (.ok [[none, none, none]]) := by
  have hs : Sensible [![4, 5, 5], ![6, 5, 5], ![5, 6, (5 : ℝ)]] [1, 1, 1] 10 [([0, 1, 2], 5)] := by
    refine ⟨rfl, by norm_num, ?_, ?_, by simp, ?_⟩
    · intro x hx a
      simp only [List.mem_cons, List.not_mem_nil, or_false] at hx
      rcases hx with rfl | rfl | rfl <;> fin_cases a <;> norm_num
    · intro m hm
      simp only [List.mem_cons, List.not_mem_nil, or_false] at hm
      rcases hm with rfl | rfl | rfl <;> norm_num
    · intro o ho i hi
      simp only [List.mem_cons, List.not_mem_nil, or_false] at ho
      subst ho
      simp only [List.mem_cons, List.not_mem_nil, or_false] at hi
      rcases hi with rfl | rfl | rfl <;> simp
  have hres : resolved 1 [([0, 1, 2], (5 : ℝ))] = [([0, 1, 2], 5)] := by simp [resolved]
  have hsel : GoodSelection [0] (resolved 1 [([0, 1, 2], (5 : ℝ))]).length := by
    rw [hres]; exact ⟨by simp, by simp, by simp⟩
  obtain ⟨o, ho⟩ : ∃ o, construct c ⟨[![4, 5, 5], ![6, 5, 5], ![5, 6, (5 : ℝ)]], [1, 1, 1],
      .nested ([([0, 1, 2], (5 : ℝ))].map Prod.fst), .array ([([0, 1, 2], (5 : ℝ))].map Prod.snd),
      10, 1, .com⟩ = .ok o := ⟨_, construct_eq c _ _ _ _ _ _ rfl (by simp)⟩
  exact ⟨o, ho, C112_returns c c hc _ _ _ _ 1 le_rfl hs _ (fun n hn => ⟨0, by simp, hn⟩) limit o ho
    [1 / 10, 1 / 2, 1] (by simp) [0] hsel⟩

end Verif.Api
