import Verif.Api.Props

/-!
# Objects made from arrays: density profiles (C96)
-/

namespace Verif.Api

open Verif.Units Verif.Catalogue Verif.Periodic Verif.Binning Verif.Par

/-! ## Lemmas -/

theorem average_near (l : List ℝ) (hne : l ≠ []) (x d : ℝ) (h : ∀ y ∈ l, |x - y| ≤ d) :
    |x - l.sum / (l.length : ℝ)| ≤ d := by
  have hpos : (0 : ℝ) < l.length := by
    have : 0 < l.length := List.length_pos_iff.2 hne
    exact_mod_cast this
  have h1 : l.sum ≤ l.length * (x + d) := by
    have := sum_map_le' l id (fun _ => x + d) fun y hy => by
      have := abs_le.1 (h y hy); simp only [id]; linarith [this.1]
    simpa [mul_add] using this
  have h2 : l.length * (x - d) ≤ l.sum := by
    have := sum_map_le' l (fun _ => x - d) id fun y hy => by
      have := abs_le.1 (h y hy); simp only [id]; linarith [this.2]
    simpa [mul_sub] using this
  rw [abs_le]
  constructor
  · have : l.sum / (l.length : ℝ) ≤ x + d := by rw [div_le_iff₀ hpos]; linarith
    linarith
  · have : x - d ≤ l.sum / (l.length : ℝ) := by rw [le_div_iff₀ hpos]; linarith
    linarith

theorem unwrapped_of_notCrossing (choose : Nat → List Nat) (L : ℝ) (hL : 0 < L)
    (ps : List (Particle ℝ)) (hch : ∃ j ∈ choose ps.length, j < ps.length)
    (h : NotCrossing L ps) : unwrapped choose L ps = ps := by
  rw [unwrapped_eq choose L hL]
  conv_rhs => rw [← List.map_id ps]
  apply List.map_congr_left
  intro p hp
  obtain ⟨pos, m⟩ := p
  simp only [id, Particle.mk.injEq, and_true]
  funext a
  have hr : |pos a - reference (choose ps.length) (ps.map fun p => p.pos) a| ≤ L / 2 := by
    unfold reference
    have hlen : ((choose ps.length).filterMap fun j => (ps.map fun p => p.pos)[j]?).length =
        (((choose ps.length).filterMap fun j => (ps.map fun p => p.pos)[j]?).map fun p => p a).length := by
      simp
    rw [hlen]
    apply average_near
    · obtain ⟨j, hj, hlt⟩ := hch
      intro h0
      have : ps[j].pos a ∈ ((choose ps.length).filterMap fun j => (ps.map fun p => p.pos)[j]?).map
          fun p => p a := by
        apply List.mem_map.2 ⟨ps[j].pos, List.mem_filterMap.2 ⟨j, hj, ?_⟩, rfl⟩
        rw [List.getElem?_map, List.getElem?_eq_getElem hlt]; rfl
      rw [h0] at this; simp at this
    · intro y hy
      obtain ⟨x, hx, rfl⟩ := List.mem_map.1 hy
      obtain ⟨j, -, hj⟩ := List.mem_filterMap.1 hx
      obtain ⟨q, hq, rfl⟩ := List.mem_map.1 (List.mem_of_getElem? hj)
      exact h _ hp q hq a
  rw [abs_le] at hr
  rcases unwrapAxis_cases L (reference (choose ps.length) (ps.map fun p => p.pos) a) (pos a) hL with
    ⟨h1, -⟩ | ⟨h1, -⟩ | ⟨-, -, e⟩
  · linarith [hr.2]
  · linarith [hr.1]
  · exact e

theorem cy_of_notCrossing (L : ℝ) (hL : 0 < L) (ps : List (Particle ℝ)) (h : NotCrossing L ps) :
    List.zipWith Particle.mk (cyRespectPBCNoRef (ps.map fun p => p.pos) L)
      (ps.map fun p => p.mass) = ps := by
  have : cyRespectPBCNoRef (ps.map fun p => p.pos) L = ps.map fun p => p.pos := by
    cases ps with
    | nil => simp [cyRespectPBCNoRef, cyLoop]
    | cons p ps =>
      simp only [List.map_cons]
      apply C24_images_partial _ _ _ hL
      intro x hx
      obtain ⟨q, hq, rfl⟩ := List.mem_map.1 hx
      exact ⟨h p (by simp) q (by simp [hq]) 0, h p (by simp) q (by simp [hq]) 1⟩
  rw [this]
  clear this h
  induction ps with
  | nil => rfl
  | cons p ps ih => simp only [List.map_cons, List.zipWith_cons_cons, ih]

theorem notCrossing_scale (L f g : ℝ) (hf : 0 < f) (ps : List (Particle ℝ)) (h : NotCrossing L ps) :
    NotCrossing (L * f) (ps.map (scale f g)) := by
  intro p hp q hq a
  obtain ⟨p, hp', rfl⟩ := List.mem_map.1 hp
  obtain ⟨q, hq', rfl⟩ := List.mem_map.1 hq
  have := h p hp' q hq' a
  simp only [scale]
  rw [← sub_mul, abs_mul, abs_of_pos hf]
  nlinarith

theorem radius_scale (f g : ℝ) (hf : 0 < f) (v : Vec ℝ) (p : Particle ℝ) :
    radius (fun a => v a * f) (scale f g p) = radius v p * f := by
  unfold radius scale
  simp only
  have : (v 0 * f - p.pos 0 * f) ^ 2 + (v 1 * f - p.pos 1 * f) ^ 2 + (v 2 * f - p.pos 2 * f) ^ 2 =
      ((v 0 - p.pos 0) ^ 2 + (v 1 - p.pos 1) ^ 2 + (v 2 - p.pos 2) ^ 2) * f ^ 2 := by ring
  rw [this, Real.sqrt_mul (by positivity), Real.sqrt_sq hf.le]

theorem massBetween_scale (f g : ℝ) (hf : 0 < f) (v : Vec ℝ) (ps : List (Particle ℝ)) (lo hi : ℝ) :
    massBetween (fun a => v a * f) (ps.map (scale f g)) (lo * f) (hi * f) =
      massBetween v ps lo hi * g := by
  unfold massBetween
  induction ps with
  | nil => simp
  | cons p ps ih =>
    have hiff : (lo * f ≤ radius (fun a => v a * f) (scale f g p) ∧
        radius (fun a => v a * f) (scale f g p) < hi * f) ↔ (lo ≤ radius v p ∧ radius v p < hi) := by
      rw [radius_scale f g hf, mul_le_mul_iff_left₀ hf, mul_lt_mul_iff_left₀ hf]
    simp only [List.map_cons, List.filter_cons, decide_eq_true_eq, hiff]
    split
    · simp only [List.map_cons, List.sum_cons, ih, scale]; ring
    · exact ih

theorem midpoints_getElem (r : List ℝ) (i : Nat) (h : i + 1 < r.length) :
    (midpoints r)[i]? = some ((r[i]?.getD 0 + r[i + 1]?.getD 0) / 2) := by
  induction r generalizing i with
  | nil => simp at h
  | cons a l ih =>
    cases l with
    | nil => simp at h
    | cons b l =>
      cases i with
      | zero => simp [midpoints]
      | succ i =>
        simp only [midpoints, List.getElem?_cons_succ]
        exact ih i (by simpa using h)

/-- The bins of `sphEdges` are those of the specification. -/
theorem bins_sphEdges (r : List ℝ) (edges : List ℝ) (h : sphEdges r = some edges) :
    (bins edges).length = r.length ∧
    ∀ b, b < r.length → (bins edges)[b]? = some (lowerEdge r b, upperEdge r b) := by
  unfold sphEdges at h
  obtain ⟨last, hlast, rfl⟩ := Option.map_eq_some_iff.1 h
  have hpos : 0 < r.length := by
    cases r with
    | nil => simp at hlast
    | cons a l => simp
  have hml := midpoints_length r
  refine ⟨by simp [bins, hml]; omega, ?_⟩
  intro b hb
  have hlast' : last = r[r.length - 1]?.getD 0 := by
    rw [List.getLast?_eq_getElem?] at hlast; rw [hlast]; rfl
  unfold bins
  simp only [List.tail_cons]
  rw [List.getElem?_zip_eq_some]
  constructor
  · unfold lowerEdge
    cases b with
    | zero => simp
    | succ b =>
      rw [if_neg (by omega), List.getElem?_cons_succ, List.getElem?_append_left (by omega),
        midpoints_getElem r b (by omega)]
      rfl
  · unfold upperEdge
    by_cases he : b + 1 = r.length
    · rw [if_pos he, List.getElem?_append_right (by omega)]
      have : b - (midpoints r).length = 0 := by omega
      rw [this, hlast']
      have : b = r.length - 1 := by omega
      rw [← this]; rfl
    · rw [if_neg he, List.getElem?_append_left (by omega), midpoints_getElem r b (by omega)]

/-- What the profiles of the model are, object by object. -/
theorem est_rows (c c' : Cfg ℝ) (hc : c.Pos)
    (xyz : List (Vec ℝ)) (masses : List ℝ) (box : ℝ) (objs : List (List Nat × ℝ)) (minPtcs : Int)
    (hmin : 1 ≤ minPtcs) (center : Center) (hs : Sensible xyz masses box objs)
    (choose : Nat → List Nat) (limit : Nat) (o : Obj)
    (ho : construct c ⟨xyz, masses, .nested (objs.map Prod.fst), .array (objs.map Prod.snd), box,
      minPtcs, center⟩ = .ok o)
    (radii edges : List ℝ) (he' : sphEdges radii = some edges)
    (sel : List Int) (hsel : GoodSelection sel (resolved minPtcs objs).length)
    (out : Except Err (List (List ℝ))) (hrun : EstDensProfs c' choose limit o radii sel out) :
    (out = .error .recursion ∧ center = .mode) ∨
    ∃ res, out = .ok res ∧ res.length = sel.length ∧
      ∀ (k : Nat) (z : Int) (obj : List Nat × ℝ), sel[k]? = some z →
        (resolved minPtcs objs)[z.toNat]? = some obj →
        particlesOf xyz masses obj.1 ≠ [] ∧
        ∃ (row : List ℝ) (v : Vec ℝ), res[k]? = some row ∧
          centreOf choose limit (box * (c.inL / mpch c.h)) center ((particlesOf xyz masses obj.1).map
            (scale (c.inL / mpch c.h) (c.inM / msunh10 c.h))) = some v ∧
          estOut c' (aloneProfile (box * (c.inL / mpch c.h)) edges ⟨(particlesOf xyz masses obj.1).map
            (scale (c.inL / mpch c.h) (c.inM / msunh10 c.h)), v, obj.2 * (c.inL / mpch c.h)⟩) =
            .ok row := by
  rw [construct_eq c xyz masses box objs minPtcs center hs.lengths hs.objects] at ho
  have ho := Except.ok.inj ho
  set f := c.inL / mpch c.h with hf
  set g := c.inM / msunh10 c.h with hg
  have hl := mpch_pos hc.h
  have hms := msunh10_pos hc.h
  have hfp : 0 < f := div_pos hc.inL hl
  have hgp : 0 < g := div_pos hc.inM hms
  obtain ⟨parts', hsp, hplen, hpk'⟩ := selected f g xyz masses box objs minPtcs hmin hs o
    (by rw [← ho]) (by rw [← ho]) (by rw [← ho]) (by rw [← ho]) sel hsel
  have hocen : o.center = center := by rw [← ho]
  have hobox : o.box = box * f := by rw [← ho]
  have hor : o.r200 = (resolved minPtcs objs).map fun o => o.2 * f := by rw [← ho]
  cases hrun with
  | rejected e h => rw [hsp] at h; cases h
  | noRadii parts h he => rw [he'] at he; cases he
  | diverges parts h hcd =>
    left
    refine ⟨rfl, ?_⟩
    obtain ⟨ps, -, hps⟩ := mapM_none _ _ hcd
    rw [hocen] at hps
    unfold centreOf at hps
    cases center with
    | mode => rfl
    | com => cases hps
  | finished parts h edges2 he centers hcen r200 hr data hd largest hlarge ws ex res hout =>
    right
    rw [hsp] at h
    have hparts := Except.ok.inj h
    subst hparts
    rw [he'] at he
    obtain rfl := Option.some.inj he
    refine ⟨res, rfl, ?_, ?_⟩
    · rw [(mapM_some_get _ _ _ hout).1]; simp [hplen]
    · intro k z obj hk hobj
      obtain ⟨hpk, hpne⟩ := hpk' k z obj hk hobj
      have hklt : k < parts'.length := (List.getElem?_eq_some_iff.1 hpk).1
      obtain ⟨v, hv, hcv⟩ := (mapM_some_get _ _ _ hcen).2 k _ hpk
      rw [hocen, hobox] at hcv
      -- R200 of the object
      have hrk : r200[k]? = some (obj.2 * f) := by
        obtain ⟨r, h1, h2⟩ := (mapM_some_get _ _ _ hr).2 k z.toNat (by
          rw [List.getElem?_map, hk]; rfl)
        rw [hor, List.getElem?_map, hobj] at h2
        rw [h1, ← Option.some.inj h2]
      have hdk : data[k]? = some ⟨(particlesOf xyz masses obj.1).map (scale f g),
          v, obj.2 * f⟩ := by
        rw [hd, List.getElem?_zipWith, hrk]
        have : (parts'.zip centers)[k]? = some ((particlesOf xyz masses obj.1).map (scale f g),
          v) := by
          rw [List.getElem?_zip_eq_some]; exact ⟨hpk, hv⟩
        rw [this]
      have hdata : ∀ d ∈ data, d.particles.length ≤ largest := by
        intro d hdm
        rw [hd] at hdm
        obtain ⟨i, hi⟩ := List.mem_iff_getElem?.1 hdm
        rw [List.getElem?_zipWith_eq_some] at hi
        obtain ⟨pc, r, h1, -, rfl⟩ := hi
        have := (List.getElem?_zip_eq_some.1 h1).1
        exact hlarge _ (List.mem_of_getElem? this)
      have hrow := C78_no_crosstalk o.box edges data largest hdata
        (fun _ : Nat => ⟨List.replicate largest 0, List.replicate largest 0, List.replicate largest 0⟩)
        (by intro t; simp) (fun _ => []) ws ex k _ hdk
      obtain ⟨row, hrow1, hrow2⟩ := (mapM_some_get _ _ _ hout).2 k k (by
        rw [List.getElem?_range hklt])
      rw [hrow] at hrow2
      refine ⟨hpne, row, v, hrow1, hcv, ?_⟩
      cases hx : estOut c' (aloneProfile o.box edges ⟨(particlesOf xyz masses obj.1).map (scale f g),
          v, obj.2 * f⟩) with
      | error e => rw [hx] at hrow2; cases hrow2
      | ok r =>
        rw [hx] at hrow2
        rw [← hobox, hx, Option.some.inj hrow2]

/-! ## C96 -/

/-- C96 (partial). Take sensible data, make an object of it and ask for density profiles (spherical
shells) of a good selection, at increasing radii.  Whatever the schedule of the parallel loop, row `k`
belongs to the `k`-th selected object, and for an object that does not cross a face of the box: the
density at radius number `b`, as a physical quantity, times the volume of the shell (in cm^3) is the
mass (in g) of the particles of the object in that shell, whose distances are measured from the mean
position of its particles (of all for `CENTER = 'com'`, of some for `'mode'`).  Missing: objects
crossing a face of the box (see C24, `C96_crossing_refuted`). -/
theorem C96_density_partial (c c' : Cfg ℝ) (hc : c.Pos) (hc' : c'.Pos) (hh : c'.h = c.h)
    (xyz : List (Vec ℝ)) (masses : List ℝ) (box : ℝ) (objs : List (List Nat × ℝ)) (minPtcs : Int)
    (hmin : 1 ≤ minPtcs) (center : Center) (hs : Sensible xyz masses box objs)
    (hr200 : ∀ o ∈ objs, 0 < o.2)
    (choose : Nat → List Nat) (hch : ∀ n, 0 < n → ∃ j ∈ choose n, j < n) (limit : Nat) (o : Obj)
    (ho : construct c ⟨xyz, masses, .nested (objs.map Prod.fst), .array (objs.map Prod.snd), box,
      minPtcs, center⟩ = .ok o)
    (radii : List ℝ) (hradii : radii ≠ []) (hinc : radii.Pairwise (· < ·))
    (hpos : ∀ r ∈ radii, 1e-8 < r)
    (sel : List Int) (hsel : GoodSelection sel (resolved minPtcs objs).length)
    (out : Except Err (List (List ℝ))) (hrun : EstDensProfs c' choose limit o radii sel out) :
    (out = .error .recursion ∧ center = .mode) ∨
    ∃ res, out = .ok res ∧ res.length = sel.length ∧
      ∀ (k : Nat) (z : Int) (obj : List Nat × ℝ), sel[k]? = some z →
        (resolved minPtcs objs)[z.toNat]? = some obj →
        NotCrossing box (particlesOf xyz masses obj.1) →
        ∃ row : List ℝ, res[k]? = some row ∧ row.length = radii.length ∧
        ∃ sub, sub.Sublist (particlesOf xyz masses obj.1) ∧ sub ≠ [] ∧
          (center = .com → sub = particlesOf xyz masses obj.1) ∧
          ∀ (b : Nat) (dens : ℝ), row[b]? = some dens →
            dens * (c'.outM / c'.outL ^ 3) * shellVolume (lowerEdge radii b * obj.2 * c.inL)
              (upperEdge radii b * obj.2 * c.inL) =
            massBetween (weightedMean sub) (particlesOf xyz masses obj.1)
              (lowerEdge radii b * obj.2) (upperEdge radii b * obj.2) * c.inM := by
  have hl := mpch_pos hc.h
  have hms := msunh10_pos hc.h
  have hfp : 0 < c.inL / mpch c.h := div_pos hc.inL hl
  have hgp : 0 < c.inM / msunh10 c.h := div_pos hc.inM hms
  obtain ⟨edges', he', helen, hegood, -, -⟩ := C30_edges radii hinc hpos hradii
  rcases est_rows c c' hc xyz masses box objs minPtcs hmin center hs choose limit o ho radii edges' he'
    sel hsel out hrun with h | ⟨res, rfl, hlen, hrows⟩
  · exact .inl h
  · right
    refine ⟨res, rfl, hlen, ?_⟩
    intro k z obj hk hobj hnc
    obtain ⟨hpne, row, v, hrow1, hcv, hrow2⟩ := hrows k z obj hk hobj
    set f := c.inL / mpch c.h with hf
    set g := c.inM / msunh10 c.h with hg
    have hLpos : 0 < box * f := mul_pos hs.box_pos hfp
    have hchk : ∃ j ∈ choose ((particlesOf xyz masses obj.1).map (scale f g)).length,
        j < ((particlesOf xyz masses obj.1).map (scale f g)).length := by
      refine hch _ ?_
      simpa [List.length_pos_iff] using hpne
    have hspec := centre_spec choose limit (box * f) hLpos center _
      (by simpa using hpne) (by
        intro p hp a
        obtain ⟨q, hq, rfl⟩ := List.mem_map.1 hp
        have := hs.inside _ (mem_particlesOf hq).1 a
        exact ⟨mul_nonneg this.1 hfp.le, mul_lt_mul_of_pos_right this.2 hfp⟩)
      (by
        intro p hp
        obtain ⟨q, hq, rfl⟩ := List.mem_map.1 hp
        exact mul_pos (hs.masses_pos _ (mem_particlesOf hq).2) hgp)
      hchk v hcv
    obtain ⟨⟨sub, hsub1, hsub2, hsub3, rfl⟩, -⟩ := hspec
    have hnc' := notCrossing_scale box f g hfp _ hnc
    rw [unwrapped_of_notCrossing choose (box * f) hLpos _ hchk hnc'] at hsub1 hsub3
    obtain ⟨sub', hsub', rfl⟩ := List.sublist_map_iff.1 hsub1
    have halone : aloneProfile (box * f) edges' ⟨(particlesOf xyz masses obj.1).map (scale f g),
        weightedMean (sub'.map (scale f g)), obj.2 * f⟩ = (bins edges').map fun e =>
        massBetween (weightedMean (sub'.map (scale f g)))
          ((particlesOf xyz masses obj.1).map (scale f g)) (e.1 * (obj.2 * f)) (e.2 * (obj.2 * f)) /
          shellVolume (e.1 * (obj.2 * f)) (e.2 * (obj.2 * f)) := by
      unfold aloneProfile
      simp only
      rw [cy_of_notCrossing (box * f) hLpos _ hnc']
      apply C27_profile _ _ _ _ _ hegood.1 _ (by simp)
      have hob : obj ∈ objs := List.mem_of_mem_filter (List.mem_of_getElem? hobj)
      exact mul_nonneg (hr200 obj hob).le hfp.le
    rw [halone] at hrow2
    have hestOut := C15_reported_density c' hc' ((bins edges').map fun e =>
        massBetween (weightedMean (sub'.map (scale f g)))
          ((particlesOf xyz masses obj.1).map (scale f g)) (e.1 * (obj.2 * f)) (e.2 * (obj.2 * f)) /
          shellVolume (e.1 * (obj.2 * f)) (e.2 * (obj.2 * f)))
    obtain ⟨out', ho1, ho2⟩ := hestOut
    rw [ho1] at hrow2
    obtain rfl : out' = row := Except.ok.inj hrow2
    obtain ⟨hb1, hb2⟩ := bins_sphEdges radii edges' he'
    refine ⟨out', hrow1, ?_, sub', hsub', by simpa using hsub2, ?_, ?_⟩
    · rw [← ho2.length_eq]; simp [hb1]
    · intro hcom
      have := hsub3 hcom
      have hinj : Function.Injective (scale f g) := by
        intro p q hpq
        have h2 := congrArg (scale f⁻¹ g⁻¹) hpq
        rwa [scale_scale, scale_scale, mul_inv_cancel₀ hfp.ne', mul_inv_cancel₀ hgp.ne', scale_one,
          scale_one] at h2
      exact hinj.list_map this
    · intro b dens hdens
      have hblt : b < radii.length := by
        have := (List.getElem?_eq_some_iff.1 hdens).1
        rw [← ho2.length_eq] at this
        simpa [hb1] using this
      have hbin := hb2 b hblt
      have hfa : dens * (c'.outM / c'.outL ^ 3) =
          massBetween (weightedMean (sub'.map (scale f g)))
          ((particlesOf xyz masses obj.1).map (scale f g)) (lowerEdge radii b * (obj.2 * f))
            (upperEdge radii b * (obj.2 * f)) /
          shellVolume (lowerEdge radii b * (obj.2 * f)) (upperEdge radii b * (obj.2 * f)) *
          (msunh10 c'.h / mpch c'.h ^ 3) := by
        have hlt : b < ((bins edges').map fun e =>
          massBetween (weightedMean (sub'.map (scale f g)))
            ((particlesOf xyz masses obj.1).map (scale f g)) (e.1 * (obj.2 * f)) (e.2 * (obj.2 * f)) /
            shellVolume (e.1 * (obj.2 * f)) (e.2 * (obj.2 * f))).length := by simp [hb1, hblt]
        obtain ⟨hlt2, rfl⟩ := List.getElem?_eq_some_iff.1 hdens
        have h4 := (List.forall₂_iff_get.1 ho2).2 b hlt hlt2
        obtain ⟨hlt3, hget⟩ := List.getElem?_eq_some_iff.1 hbin
        simpa [hget] using h4
      have hob : obj ∈ objs := List.mem_of_mem_filter (List.mem_of_getElem? hobj)
      have hR := hr200 obj hob
      have hedge : lowerEdge radii b < upperEdge radii b ∧ 0 ≤ lowerEdge radii b := by
        have hmem := List.mem_of_getElem? hbin
        unfold bins at hmem hbin
        refine ⟨?_, hegood.1 _ (List.of_mem_zip hmem).1⟩
        obtain ⟨h1, h2⟩ := List.getElem?_zip_eq_some.1 hbin
        rw [List.getElem?_tail] at h2
        exact (List.pairwise_iff_getElem.1 hegood.2) b (b + 1)
          (List.getElem?_eq_some_iff.1 h1).1 (List.getElem?_eq_some_iff.1 h2).1 (by omega) |> fun h => by
          rwa [(List.getElem?_eq_some_iff.1 h1).2, (List.getElem?_eq_some_iff.1 h2).2] at h
      have hmean : weightedMean (sub'.map (scale f g)) = fun a => weightedMean sub' a * f := by
        funext a; exact weightedMean_scale f g hgp.ne' sub' a
      rw [hfa, hmean, ← mul_assoc, ← mul_assoc, massBetween_scale f g hfp, hh]
      set lo := lowerEdge radii b
      set hi := upperEdge radii b
      have hcube : lo ^ 3 < hi ^ 3 := pow_lt_pow_left₀ hedge.1 hedge.2 (by norm_num)
      have hv1 : shellVolume (lo * obj.2 * f) (hi * obj.2 * f) =
          4 / 3 * Real.pi * ((hi ^ 3 - lo ^ 3) * obj.2 ^ 3 * f ^ 3) := by
        unfold shellVolume; ring
      have hv2 : shellVolume (lo * obj.2 * c.inL) (hi * obj.2 * c.inL) =
          4 / 3 * Real.pi * ((hi ^ 3 - lo ^ 3) * obj.2 ^ 3 * c.inL ^ 3) := by
        unfold shellVolume; ring
      rw [hv1, hv2]
      have h1 : hi ^ 3 - lo ^ 3 ≠ 0 := by linarith
      have h2 := hR.ne'
      have h3 := hc.inL.ne'
      have h4 := hl.ne'
      have h5 := hms.ne'
      have h6 := Real.pi_ne_zero
      rw [hf, hg]
      field_simp

theorem mapM_exists {α β : Type} (F : α → Option β) (l : List α) (h : ∀ a ∈ l, ∃ b, F a = some b) :
    ∃ m, l.mapM F = some m := by
  cases hm : l.mapM F with
  | some m => exact ⟨m, rfl⟩
  | none =>
    obtain ⟨a, ha, hn⟩ := mapM_none F l hm
    obtain ⟨b, hb⟩ := h a ha
    rw [hn] at hb; cases hb

/-- The call of C96 has an outcome. -/
theorem C96_outcome_exists (c c' : Cfg ℝ)
    (xyz : List (Vec ℝ)) (masses : List ℝ) (box : ℝ) (objs : List (List Nat × ℝ)) (minPtcs : Int)
    (hmin : 1 ≤ minPtcs) (center : Center) (hs : Sensible xyz masses box objs)
    (choose : Nat → List Nat) (limit : Nat) (o : Obj)
    (ho : construct c ⟨xyz, masses, .nested (objs.map Prod.fst), .array (objs.map Prod.snd), box,
      minPtcs, center⟩ = .ok o)
    (radii : List ℝ) (sel : List Int) (hsel : GoodSelection sel (resolved minPtcs objs).length) :
    ∃ out, EstDensProfs c' choose limit o radii sel out := by
  rw [construct_eq c xyz masses box objs minPtcs center hs.lengths hs.objects] at ho
  have ho := Except.ok.inj ho
  obtain ⟨parts, hsp, -, -⟩ := selected _ _ xyz masses box objs minPtcs hmin hs o
    (by rw [← ho]) (by rw [← ho]) (by rw [← ho]) (by rw [← ho]) sel hsel
  cases he : sphEdges radii with
  | none => exact ⟨_, .noRadii parts hsp he⟩
  | some edges =>
    cases hcen : parts.mapM (centreOf choose limit o.box o.center) with
    | none => exact ⟨_, .diverges parts hsp hcen⟩
    | some centers =>
      obtain ⟨r200, hr⟩ : ∃ r, fancy o.r200 (sel.map Int.toNat) = some r := by
        apply mapM_exists
        intro i hi
        obtain ⟨z, hz, rfl⟩ := List.mem_map.1 hi
        have := hsel.2.2 z hz
        refine ⟨_, List.getElem?_eq_getElem ?_⟩
        rw [← ho]
        simp only [List.length_map]
        omega
      obtain ⟨out, hout⟩ := mapM_exists (fun p => (estOut c' ((runSteps
          (threadSteps (fun p => ((List.zipWith (fun (pc : List (Particle ℝ) × Vec ℝ) r =>
            (⟨pc.1, pc.2, r⟩ : ObjectData)) (parts.zip centers) r200)[p]?.map
              (densBody o.box edges)).getD []) (0 : Nat) (List.range (List.zipWith
            (fun (pc : List (Particle ℝ) × Vec ℝ) r => (⟨pc.1, pc.2, r⟩ : ObjectData))
              (parts.zip centers) r200).length))
        ⟨fun _ => ⟨List.replicate (parts.map List.length).sum 0,
          List.replicate (parts.map List.length).sum 0,
          List.replicate (parts.map List.length).sum 0⟩,
          fun _ => []⟩).out p)).toOption) (List.range parts.length) (by
          intro p _
          unfold estOut
          rw [internalLM_eq]
          exact ⟨_, rfl⟩)
      exact ⟨_, .finished parts hsp edges he centers hcen r200 hr _ rfl (parts.map List.length).sum
        (fun ps hps => List.single_le_sum (by simp) _ (List.mem_map_of_mem hps)) _
        (Execution.oneThread _ _ List.nodup_range 0) out hout⟩

/-- C96 is false for objects crossing a face of the box: three particles of mass 1 on a line, within 5/3
of their centre (5, 5, 1/3), in a box of length 10; R200 is 5 and one radius is asked for, so that one
shell contains the whole object.  In all unit systems the density reported accounts for two particles
only. -/
theorem C96_crossing_refuted (c : Cfg ℝ) (hc : c.Pos) (limit : Nat) :
    Sensible [![5, 5, 0], ![5, 5, 2], ![5, 5, (9 : ℝ)]] [1, 1, 1] 10 [([0, 1, 2], 5)] ∧
    ∃ o, construct c ⟨[![5, 5, 0], ![5, 5, 2], ![5, 5, 9]], [1, 1, 1], .nested [[0, 1, 2]], .array [5],
      10, 1, .com⟩ = .ok o ∧
    (∃ out, EstDensProfs c (fun _ => [0, 1, 2]) limit o [1] [0] out) ∧
    ∀ out, EstDensProfs c (fun _ => [0, 1, 2]) limit o [1] [0] out →
      ∃ dens, out = .ok [[dens]] ∧
        dens * (c.outM / c.outL ^ 3) * shellVolume (1e-8 * 5 * c.inL) (1 * 5 * c.inL) = 2 * c.inM := by
  have hs : Sensible [![5, 5, 0], ![5, 5, 2], ![5, 5, (9 : ℝ)]] [1, 1, 1] 10 [([0, 1, 2], 5)] := by
    refine ⟨rfl, by norm_num, ?_, ?_, by simp, ?_⟩
    · intro x hx a
      simp only [List.mem_cons, List.not_mem_nil, or_false] at hx
      rcases hx with rfl | rfl | rfl <;> fin_cases a <;> norm_num
    · intro m hm
      simp only [List.mem_cons, List.not_mem_nil, or_false] at hm
      rcases hm with rfl | rfl | rfl <;> norm_num
    · intro o ho i hi
      simp only [List.mem_cons, List.not_mem_nil, or_false] at ho
      subst ho
      simp only [List.mem_cons, List.not_mem_nil, or_false] at hi
      rcases hi with rfl | rfl | rfl <;> simp
  have hres : resolved 1 [([0, 1, 2], (5 : ℝ))] = [([0, 1, 2], 5)] := by simp [resolved]
  have hsel : GoodSelection [0] (resolved 1 [([0, 1, 2], (5 : ℝ))]).length := by
    rw [hres]; exact ⟨by simp, by simp, by simp⟩
  obtain ⟨o, ho⟩ : ∃ o, construct c ⟨[![5, 5, 0], ![5, 5, 2], ![5, 5, 9]], [1, 1, 1],
      .nested ([([0, 1, 2], (5 : ℝ))].map Prod.fst), .array ([([0, 1, 2], (5 : ℝ))].map Prod.snd),
      10, 1, .com⟩ = .ok o := ⟨_, construct_eq c _ _ _ _ _ _ rfl (by simp)⟩
  refine ⟨hs, o, ho, C96_outcome_exists c c _ _ _ _ 1 le_rfl .com hs _ limit o ho _ _ hsel, ?_⟩
  intro out hrun
  have hl := mpch_pos hc.h
  have hms := msunh10_pos hc.h
  have hfp : 0 < c.inL / mpch c.h := div_pos hc.inL hl
  have hgp : 0 < c.inM / msunh10 c.h := div_pos hc.inM hms
  rcases est_rows c c hc _ _ _ _ 1 le_rfl .com hs _ limit o ho [1] [1e-8, 1]
    (by simp [sphEdges, midpoints]) _ hsel out hrun with ⟨-, h⟩ | ⟨res, rfl, hlen, hrows⟩
  · cases h
  obtain ⟨-, row, v, hrow1, hcv, hrow2⟩ := hrows 0 0 ([0, 1, 2], 5) rfl (by rw [hres]; rfl)
  set f := c.inL / mpch c.h with hf
  set g := c.inM / msunh10 c.h with hg
  have hparts : particlesOf [![5, 5, 0], ![5, 5, 2], ![5, 5, (9 : ℝ)]] [1, 1, 1] [0, 1, 2] =
      [⟨![5, 5, 0], 1⟩, ⟨![5, 5, 2], 1⟩, ⟨![5, 5, 9], 1⟩] := by
    simp [particlesOf]
  simp only [hparts] at hcv hrow2
  -- the centre
  have hv : v = fun a => (![5, 5, 1 / 3] : Vec ℝ) a * f := by
    have hL : 0 < 10 * f := by positivity
    have hcv' : some (calcCoM [0, 1, 2] (unwrapped (fun _ => [0, 1, 2]) (10 * f)
      ([⟨![5, 5, 0], 1⟩, ⟨![5, 5, 2], 1⟩, ⟨![5, 5, 9], 1⟩].map (scale f g)))) = some v := hcv
    have hun : unwrapped (fun _ => [0, 1, 2]) (10 * f)
      ([⟨![5, 5, 0], 1⟩, ⟨![5, 5, 2], 1⟩, ⟨![5, 5, 9], 1⟩].map (scale f g)) =
      [⟨![5, 5, 0], 1⟩, ⟨![5, 5, 2], 1⟩, ⟨![5, 5, -1], 1⟩].map (scale f g) := by
      have href : reference [0, 1, 2] (([⟨![5, 5, 0], 1⟩, ⟨![5, 5, 2], 1⟩, ⟨![5, 5, 9], 1⟩].map
          (scale f g)).map fun p => p.pos) = fun a => (![5, 5, 11 / 3] : Vec ℝ) a * f := by
        funext a
        fin_cases a <;> simp [reference, scale] <;> ring
      rw [unwrapped_eq _ _ hL, href]
      simp only [List.map_cons, List.map_nil, scale, List.cons.injEq, Particle.mk.injEq, and_true]
      refine ⟨?_, ?_, ?_⟩ <;> funext a <;>
        rcases unwrapAxis_cases (10 * f) ((![5, 5, 11 / 3] : Vec ℝ) a * f) _ hL with
          ⟨h1, e⟩ | ⟨h1, e⟩ | ⟨h1, h2, e⟩ <;> rw [e] <;> fin_cases a <;> simp at * <;> nlinarith
    rw [hun] at hcv'
    rw [← Option.some.inj hcv', calcCoM_eq _ _ (by simp [totalMass, scale]; nlinarith)]
    funext a
    fin_cases a <;> simp [weightedMean, totalMass, scale] <;> field_simp <;> norm_num
  have hcy : cyRespectPBCNoRef (([⟨![5, 5, 0], 1⟩, ⟨![5, 5, 2], 1⟩, ⟨![5, 5, 9], 1⟩].map
      (scale f g)).map fun p => p.pos) (10 * f) = ([⟨![5, 5, 0], 1⟩, ⟨![5, 5, 2], 1⟩,
      ⟨![5, 5, 9], 1⟩].map (scale f g)).map fun p => p.pos := by
    simp only [List.map_cons, List.map_nil]
    apply C24_images_partial _ _ _ (by positivity)
    intro x hx
    simp only [List.mem_cons, List.not_mem_nil, or_false] at hx
    rcases hx with rfl | rfl <;> simp [scale] <;> positivity
  have halone : aloneProfile (10 * f) [1e-8, 1] ⟨[⟨![5, 5, 0], 1⟩, ⟨![5, 5, 2], 1⟩,
      ⟨![5, 5, 9], 1⟩].map (scale f g), v, 5 * f⟩ = [2 * g /
        shellVolume (1e-8 * 5 * f) (1 * 5 * f)] := by
    unfold aloneProfile
    simp only
    rw [hcy, C27_profile _ _ _ (by positivity) _ (by simp; norm_num) _ (by simp)]
    simp only [bins, List.tail_cons, List.zip_cons_cons, List.zip_nil_right, List.map_cons,
      List.map_nil, List.cons.injEq, and_true]
    rw [← mul_assoc, ← mul_assoc]
    congr 1
    have : List.zipWith Particle.mk [(scale f g ⟨![5, 5, 0], 1⟩).pos, (scale f g ⟨![5, 5, 2], 1⟩).pos,
        (scale f g ⟨![5, 5, 9], 1⟩).pos] [(scale f g ⟨![5, 5, 0], 1⟩).mass,
        (scale f g ⟨![5, 5, 2], 1⟩).mass, (scale f g ⟨![5, 5, 9], 1⟩).mass] =
        [⟨![5, 5, 0], 1⟩, ⟨![5, 5, 2], 1⟩, ⟨![5, 5, 9], 1⟩].map (scale f g) := rfl
    rw [this, hv, massBetween_scale f g hfp]
    congr 1
    have r1 : radius ![5, 5, 1 / 3] ⟨![5, 5, 0], 1⟩ = 1 / 3 := by
      unfold radius
      rw [Real.sqrt_eq_iff_mul_self_eq (by positivity) (by norm_num)]
      simp; norm_num
    have r2 : radius ![5, 5, 1 / 3] ⟨![5, 5, 2], 1⟩ = 5 / 3 := by
      unfold radius
      rw [Real.sqrt_eq_iff_mul_self_eq (by positivity) (by norm_num)]
      simp; norm_num
    have r3 : radius ![5, 5, 1 / 3] ⟨![5, 5, 9], 1⟩ = 26 / 3 := by
      unfold radius
      rw [Real.sqrt_eq_iff_mul_self_eq (by positivity) (by norm_num)]
      simp; norm_num
    unfold massBetween
    simp only [List.filter_cons, List.filter_nil, r1, r2, r3]
    norm_num
  rw [halone] at hrow2
  unfold estOut at hrow2
  rw [internalLM_eq] at hrow2
  have hrow2 := Except.ok.inj hrow2
  simp only [List.map_cons, List.map_nil] at hrow2
  subst hrow2
  have hres1 : res = [res[0]'(by rw [hlen]; simp)] := by
    match res, hlen with
    | [x], _ => rfl
  refine ⟨_, by rw [hres1]; congr 2; exact (List.getElem?_eq_some_iff.1 hrow1).2, ?_⟩
  have h1 := hc.outL.ne'
  have h2 := hc.outM.ne'
  have h3 := hc.inL.ne'
  have h4 := hl.ne'
  have h5 := hms.ne'
  have h6 := Real.pi_ne_zero
  have h7 : (massUnit : ℝ) ≠ 0 := by norm_num [massUnit]
  have hv1 : shellVolume (1e-8 * 5 * f) (1 * 5 * f) =
      4 / 3 * Real.pi * ((1 - 1e-24) * 5 ^ 3 * f ^ 3) := by
    unfold shellVolume; ring
  have hv2 : shellVolume (1e-8 * 5 * c.inL) (1 * 5 * c.inL) =
      4 / 3 * Real.pi * ((1 - 1e-24) * 5 ^ 3 * c.inL ^ 3) := by
    unfold shellVolume; ring
  have h8 : (1 - 1e-24 : ℝ) ≠ 0 := by norm_num
  rw [hv1, hv2, hf, hg, zpow_neg]
  generalize (1 - 1e-24 : ℝ) = q at *
  generalize (massUnit : ℝ) = u at *
  have hz : ((mpch c.h / c.outL) ^ (3 : ℤ)) = (mpch c.h / c.outL) ^ 3 := by norm_cast
  rw [hz]
  field_simp

end Verif.Api
