import Verif.Api.ContinuityMode

/-!
# Shape catalogues under small changes of the data, for either definition of the centre (C183)
-/

namespace Verif.Api

open Verif.Shapes
open Verif.Binning (nth nth_mem)
open Verif (Vec Particle weightedMean totalMass)
open Verif.Units Verif.Catalogue
open Verif.Periodic (calcMode calcCoM calcMode_is_mean)
open Filter Topology

/-! ## Specification -/

/-- The longest side of the smallest box around the particles: the first radius of the search for the mode when shapes are wanted. -/
noncomputable def longestSide (ps : List (Particle ℝ)) : ℝ := max (max (axisExtent ps 0) (axisExtent ps 1)) (axisExtent ps 2)

/-! ## The longest side -/

section

variable {ι : Type} {F : Filter ι}

theorem max_near : ∀ (l : List Nat) (f : ι → Nat → ℝ) (g : Nat → ℝ), (∀ k ∈ l, Tendsto (fun i => f i k) F (𝓝 (g k))) →
    Tendsto (fun i => ((l.map (f i)).max?).getD 0) F (𝓝 (((l.map g).max?).getD 0)) := by
  intro l f g
  induction l with
  | nil => intro _; simpa using tendsto_const_nhds
  | cons k l ih =>
    intro h
    have h1 := h k (by simp)
    have h2 := ih fun j hj => h j (by simp [hj])
    rcases l with _ | ⟨j, l⟩
    · simpa using h1
    · have key : ∀ g : Nat → ℝ, (((k :: j :: l).map g).max?).getD 0 = max (g k) ((((j :: l).map g).max?).getD 0) := by
        intro g
        rw [List.map_cons, List.max?_cons]
        obtain ⟨m, hm⟩ : ∃ m, ((j :: l).map g).max? = some m := by
          rw [List.map_cons, List.max?_cons']; exact ⟨_, rfl⟩
        rw [hm]
        rfl
      simp only [key]
      exact h1.max h2

theorem min_near : ∀ (l : List Nat) (f : ι → Nat → ℝ) (g : Nat → ℝ), (∀ k ∈ l, Tendsto (fun i => f i k) F (𝓝 (g k))) →
    Tendsto (fun i => ((l.map (f i)).min?).getD 0) F (𝓝 (((l.map g).min?).getD 0)) := by
  intro l f g
  induction l with
  | nil => intro _; simpa using tendsto_const_nhds
  | cons k l ih =>
    intro h
    have h1 := h k (by simp)
    have h2 := ih fun j hj => h j (by simp [hj])
    rcases l with _ | ⟨j, l⟩
    · simpa using h1
    · have key : ∀ g : Nat → ℝ, (((k :: j :: l).map g).min?).getD 0 = min (g k) ((((j :: l).map g).min?).getD 0) := by
        intro g
        rw [List.map_cons, List.min?_cons]
        obtain ⟨m, hm⟩ : ∃ m, ((j :: l).map g).min? = some m := by
          rw [List.map_cons, List.min?_cons']; exact ⟨_, rfl⟩
        rw [hm]
        rfl
      simp only [key]
      exact h1.min h2

theorem longestSide_near {parts : ι → List (Particle ℝ)} {ps : List (Particle ℝ)} (hnum : ∀ i, (parts i).length = ps.length)
    (hpos : ∀ k < ps.length, ∀ a, Tendsto (fun i => (nth (parts i) k).pos a) F (𝓝 ((nth ps k).pos a))) :
    Tendsto (fun i => longestSide (parts i)) F (𝓝 (longestSide ps)) := by
  have hext : ∀ a, Tendsto (fun i => axisExtent (parts i) a) F (𝓝 (axisExtent ps a)) := by
    intro a
    have hlist : ∀ l : List (Particle ℝ), l.map (fun p => p.pos a) = (List.range l.length).map fun k => (nth l k).pos a := by
      intro l
      conv_lhs => rw [← list_nth l, List.map_map]
      rfl
    unfold axisExtent
    simp only [hlist, hnum]
    exact (max_near _ _ _ fun k hk => hpos k (List.mem_range.1 hk) a).sub (min_near _ _ _ fun k hk => hpos k (List.mem_range.1 hk) a)
  exact ((hext 0).max (hext 1)).max (hext 2)

end

/-! ## The centre -/

theorem shapeCentre_plain (choose : Nat → List Nat) (hch : ∀ n, 0 < n → ∃ j ∈ choose n, j < n) (limit : Nat) {box f g : ℝ} (hbox : 0 < box) (hf : 0 < f)
    (hg : 0 < g) (center : Center) (ps : List (Particle ℝ)) (hne : ps ≠ []) (hm : ∀ p ∈ ps, 0 < p.mass) (hnc : NotCrossing box ps) :
    shapeCentre choose limit (box * f) center (ps.map (scale f g)) = (plainCentre limit (longestSide ps) center ps).map fun v a => v a * f := by
  rw [shapeCentre_scale hf hg]
  congr 1
  have hu := unwrapped_of_notCrossing choose box hbox ps (hch _ (by simpa [List.length_pos_iff] using hne)) hnc
  unfold unwrapped at hu
  unfold shapeCentre plainCentre longestSide
  simp only [hu]
  cases center with
  | mode => rfl
  | com =>
    simp only [Option.some.injEq]
    exact Periodic.calcCoM_eq _ _ (totalMass_pos _ hne hm).ne'

theorem shape_diverges (c c' : Cfg ℝ) (hc : c.Pos)
    (xyz : List (Vec ℝ)) (masses : List ℝ) (box : ℝ) (objs : List (List Nat × ℝ)) (minPtcs : Int)
    (hmin : 1 ≤ minPtcs) (center : Center) (hs : Sensible xyz masses box objs) (sol : Solver)
    (choose : Nat → List Nat) (hch : ∀ n, 0 < n → ∃ j ∈ choose n, j < n) (limit : Nat) (o : Obj)
    (ho : construct c ⟨xyz, masses, .nested (objs.map Prod.fst), .array (objs.map Prod.snd), box,
      minPtcs, center⟩ = .ok o) (katz : Katz) (whole : Bool)
    (sel : List Int) (hsel : GoodSelection sel (resolved minPtcs objs).length)
    (hrun : GetShapeCat c' sol choose limit o katz whole sel (.error (.api .recursion))) :
    ∃ (z : Int) (obj : List Nat × ℝ), z ∈ sel ∧ (resolved minPtcs objs)[z.toNat]? = some obj ∧
      (NotCrossing box (particlesOf xyz masses obj.1) →
        plainCentre limit (longestSide (particlesOf xyz masses obj.1)) center (particlesOf xyz masses obj.1) = none) := by
  rw [construct_eq c xyz masses box objs minPtcs center hs.lengths hs.objects] at ho
  have ho := Except.ok.inj ho
  set f := c.inL / mpch c.h with hf
  set g := c.inM / msunh10 c.h with hg
  have hfp : 0 < f := div_pos hc.inL (mpch_pos hc.h)
  have hgp : 0 < g := div_pos hc.inM (msunh10_pos hc.h)
  obtain ⟨parts', hsp, hplen, hpk'⟩ := selected f g xyz masses box objs minPtcs hmin hs o
    (by rw [← ho]) (by rw [← ho]) (by rw [← ho]) (by rw [← ho]) sel hsel
  have hocen : o.center = center := by rw [← ho]
  have hobox : o.box = box * f := by rw [← ho]
  cases hrun with
  | rejected e h => rw [hsp] at h; cases h
  | diverges parts h hcd =>
    obtain ⟨ps, hps, hnone⟩ := mapM_none _ _ hcd
    rw [hsp] at h
    obtain rfl := Except.ok.inj h
    obtain ⟨k, hk, hkp⟩ := List.getElem_of_mem hps
    have hk' : k < sel.length := by rw [← hplen]; exact hk
    have hzr := hsel.2.2 _ (List.getElem_mem hk')
    have hob : (resolved minPtcs objs)[sel[k].toNat]? = some ((resolved minPtcs objs)[sel[k].toNat]'(by omega)) := List.getElem?_eq_getElem (by omega)
    obtain ⟨h1, h2⟩ := hpk' k _ _ (List.getElem?_eq_getElem hk') hob
    rw [List.getElem?_eq_getElem hk, hkp] at h1
    obtain rfl := Option.some.inj h1
    refine ⟨_, _, List.getElem_mem hk', hob, fun hnc => ?_⟩
    rw [hocen, hobox, shapeCentre_plain choose hch limit hs.box_pos hfp hgp center _ h2 (fun p hp => hs.masses_pos _ (mem_particlesOf hp).2) hnc] at hnone
    simpa using hnone
  | looped parts h centers hcen r200 hr data hd largest hl ws ex l m hu _ hout =>
    split at hout <;> cases hout

/-- The rows of a shape catalogue in terms of the centre. -/
theorem shape_entries (c c' : Cfg ℝ) (hc : c.Pos) (hc' : c'.Pos) (hh : c'.h = c.h)
    (xyz : List (Vec ℝ)) (masses : List ℝ) (box : ℝ) (objs : List (List Nat × ℝ)) (minPtcs : Int)
    (hmin : 1 ≤ minPtcs) (center : Center) (hs : Sensible xyz masses box objs)
    (hr200 : ∀ o ∈ objs, 0 < o.2) (sol : Solver) (hsol : GoodSolver sol)
    (choose : Nat → List Nat) (hch : ∀ n, 0 < n → ∃ j ∈ choose n, j < n) (limit : Nat) (o : Obj)
    (ho : construct c ⟨xyz, masses, .nested (objs.map Prod.fst), .array (objs.map Prod.snd), box,
      minPtcs, center⟩ = .ok o)
    (katz : Katz) (htol : katz.tol < 1) (hradii : ∀ r ∈ katz.radii, 0 < r) (whole : Bool)
    (sel : List Int) (hsel : GoodSelection sel (resolved minPtcs objs).length)
    (out : Except ShapeErr (List (List ShapeEntry)))
    (hrun : GetShapeCat c' sol choose limit o katz whole sel out) :
    (out = .error (.api .recursion) ∧ ∃ (z : Int) (obj : List Nat × ℝ), z ∈ sel ∧ (resolved minPtcs objs)[z.toNat]? = some obj ∧
      (NotCrossing box (particlesOf xyz masses obj.1) →
        plainCentre limit (longestSide (particlesOf xyz masses obj.1)) center (particlesOf xyz masses obj.1) = none)) ∨
    (out = .error .zeroDivision ∧ ∃ (k : Nat) (z : Int) (obj : List Nat × ℝ), sel[k]? = some z ∧
      (resolved minPtcs objs)[z.toNat]? = some obj ∧
      (NotCrossing box (particlesOf xyz masses obj.1) →
        ∃ v, plainCentre limit (longestSide (particlesOf xyz masses obj.1)) center (particlesOf xyz masses obj.1) = some v ∧
          ∃ b, b < wantedColumns katz whole ∧ Degenerate (task katz sol (particlesOf xyz masses obj.1)
            v (wantedVolume katz whole obj.2 (6 * mpch c.h / c.inL) b)))) ∨
    ∃ res, out = .ok res ∧ res.length = sel.length ∧
      ∀ (k : Nat) (z : Int) (obj : List Nat × ℝ), sel[k]? = some z →
        (resolved minPtcs objs)[z.toNat]? = some obj →
        ∃ row : List ShapeEntry, res[k]? = some row ∧ row.length = wantedColumns katz whole ∧
        (NotCrossing box (particlesOf xyz masses obj.1) →
        ∃ v, plainCentre limit (longestSide (particlesOf xyz masses obj.1)) center (particlesOf xyz masses obj.1) = some v ∧
          ∀ (b : Nat) (e : ShapeEntry), row[b]? = some e →
            Answers (task katz sol (particlesOf xyz masses obj.1) v
              (wantedVolume katz whole obj.2 (6 * mpch c.h / c.inL) b)) c.inL c'.outL e) := by
  have hfp : 0 < c.inL / mpch c.h := div_pos hc.inL (mpch_pos hc.h)
  have hgp : 0 < c.inM / msunh10 c.h := div_pos hc.inM (msunh10_pos hc.h)
  have hcen : ∀ (j : Nat) (obj : List Nat × ℝ) (v : Vec ℝ), (resolved minPtcs objs)[j]? = some obj → NotCrossing box (particlesOf xyz masses obj.1) →
      shapeCentre choose limit (box * (c.inL / mpch c.h)) center ((particlesOf xyz masses obj.1).map
        (scale (c.inL / mpch c.h) (c.inM / msunh10 c.h))) = some (fun a => v a * (c.inL / mpch c.h)) →
      plainCentre limit (longestSide (particlesOf xyz masses obj.1)) center (particlesOf xyz masses obj.1) = some v := by
    intro j obj v hob hnc h
    rw [shapeCentre_plain choose hch limit hs.box_pos hfp hgp center _ (selected_ne hs hmin hob)
      (fun p hp => hs.masses_pos _ (mem_particlesOf hp).2) hnc] at h
    obtain ⟨w, hw, he⟩ := Option.map_eq_some_iff.1 h
    rw [hw]
    congr 1
    funext a
    exact mul_right_cancel₀ hfp.ne' (congrFun he a)
  rcases shapes_core c c' hc hc' hh xyz masses box objs minPtcs hmin center hs hr200 sol hsol choose hch limit o ho katz htol
    hradii whole sel hsel out hrun with ⟨h, -⟩ | ⟨h, k, z, obj, h1, h2, h3⟩ | ⟨res, h1, h2, h3⟩
  · exact .inl ⟨h, by rw [h] at hrun; exact shape_diverges c c' hc xyz masses box objs minPtcs hmin center hs sol choose hch limit o ho katz whole sel hsel hrun⟩
  · refine .inr (.inl ⟨h, k, z, obj, h1, h2, fun hnc => ?_⟩)
    obtain ⟨sub, -, -, -, f3, f4⟩ := h3 hnc
    exact ⟨_, hcen _ obj _ h2 hnc f3, f4⟩
  · refine .inr (.inr ⟨res, h1, h2, ?_⟩)
    intro k z obj hk hobj
    obtain ⟨row, g1, g2, g3⟩ := h3 k z obj hk hobj
    refine ⟨row, g1, g2, fun hnc => ?_⟩
    obtain ⟨sub, -, -, -, f3, f4⟩ := g3 hnc
    exact ⟨_, hcen _ obj _ hobj hnc f3, f4⟩

section

variable {ι : Type} {F : Filter ι}

/-- C183 (either definition of the centre). As `C183_catalogue`, for CENTER = 'com' or 'mode'; for 'mode' no particle is exactly on a sphere of the
search, and the other conditions are about the tasks around the mode. -/
theorem C183_catalogue_any (c c' : Cfg ℝ) (hc : c.Pos) (hc' : c'.Pos) (hh : c'.h = c.h)
    (xyz : List (Vec ℝ)) (masses : List ℝ) (box : ℝ) (objs : List (List Nat × ℝ)) (minPtcs : Int) (hmin : 1 ≤ minPtcs) (center : Center)
    (hs : Sensible xyz masses box objs) (hr200 : ∀ o ∈ objs, 0 < o.2)
    (xyzs : ι → List (Vec ℝ)) (ms : ι → List ℝ) (objss : ι → List (List Nat × ℝ))
    (hss : ∀ i, Sensible (xyzs i) (ms i) box (objss i)) (hr200s : ∀ i, ∀ o ∈ objss i, 0 < o.2)
    (happ : DataApproach F xyzs ms objss xyz masses objs)
    (sol : Solver) (hsol : GoodSolver sol) (choose : Nat → List Nat) (hch : ∀ n, 0 < n → ∃ j ∈ choose n, j < n) (limit : Nat)
    (katz : Katz) (htol : katz.tol < 1) (hradii : ∀ r ∈ katz.radii, 0 < r) (whole : Bool)
    (sel : List Int) (hsel : GoodSelection sel (resolved minPtcs objs).length)
    (hobj : ∀ (z : Int) (obj : List Nat × ℝ), z ∈ sel → (resolved minPtcs objs)[z.toNat]? = some obj →
      (∀ p ∈ particlesOf xyz masses obj.1, ∀ q ∈ particlesOf xyz masses obj.1, ∀ a, |p.pos a - q.pos a| < box / 2) ∧
      (∃ p ∈ particlesOf xyz masses obj.1, ∃ q ∈ particlesOf xyz masses obj.1, p.pos ≠ q.pos) ∧
      (center = .mode → OffSpheres (particlesOf xyz masses obj.1) (longestSide (particlesOf xyz masses obj.1))) ∧
      ∀ v, plainCentre limit (longestSide (particlesOf xyz masses obj.1)) center (particlesOf xyz masses obj.1) = some v →
        (katz.reduced = true → ∀ p ∈ particlesOf xyz masses obj.1, p.pos ≠ v) ∧
        ∀ b < wantedColumns katz whole, Generic (task katz sol (particlesOf xyz masses obj.1) v
          (wantedVolume katz whole obj.2 (6 * mpch c.h / c.inL) b)))
    (o : Obj) (ho : construct c ⟨xyz, masses, .nested (objs.map Prod.fst), .array (objs.map Prod.snd), box, minPtcs, center⟩ = .ok o)
    (res : List (List ShapeEntry)) (hrun : GetShapeCat c' sol choose limit o katz whole sel (.ok res)) (ε : ℝ) (hε : 0 < ε) :
    ∀ᶠ i in F, ∀ o', construct c ⟨xyzs i, ms i, .nested ((objss i).map Prod.fst), .array ((objss i).map Prod.snd), box, minPtcs, center⟩ = .ok o' →
      ∀ out, GetShapeCat c' sol choose limit o' katz whole sel out →
        ∃ res', out = .ok res' ∧ res'.length = res.length ∧ ∀ (k : Nat) (row row' : List ShapeEntry), res[k]? = some row → res'[k]? = some row' →
          row'.length = row.length ∧ ∀ (b : Nat) (e e' : ShapeEntry), row[b]? = some e → row'[b]? = some e' → CloseEntries ε e e' := by
  rcases shape_entries c c' hc hc' hh xyz masses box objs minPtcs hmin center hs hr200 sol hsol choose hch limit o ho katz htol hradii whole sel hsel
    _ hrun with ⟨h, -⟩ | ⟨h, -⟩ | ⟨res₀, h, hlen, hrows⟩
  · cases h
  · cases h
  obtain rfl : res = res₀ := by cases h; rfl
  -- every entry
  have hentry : ∀ k < sel.length, ∀ᶠ i in F, ∀ (z : Int) (obj' : List Nat × ℝ), sel[k]? = some z → (resolved minPtcs (objss i))[z.toNat]? = some obj' →
      NotCrossing box (particlesOf (xyzs i) (ms i) obj'.1) ∧
      ∃ v', plainCentre limit (longestSide (particlesOf (xyzs i) (ms i) obj'.1)) center (particlesOf (xyzs i) (ms i) obj'.1) = some v' ∧
      ∀ b < wantedColumns katz whole,
        ¬ Degenerate (task katz sol (particlesOf (xyzs i) (ms i) obj'.1) v'
          (wantedVolume katz whole obj'.2 (6 * mpch c.h / c.inL) b)) ∧
        ∀ row e e', res[k]? = some row → row[b]? = some e →
          Answers (task katz sol (particlesOf (xyzs i) (ms i) obj'.1) v'
            (wantedVolume katz whole obj'.2 (6 * mpch c.h / c.inL) b)) c.inL c'.outL e' → CloseEntries ε e e' := by
    intro k hk
    have hz : sel[k]? = some sel[k] := List.getElem?_eq_getElem hk
    have hzr := hsel.2.2 _ (List.getElem_mem hk)
    have hob : (resolved minPtcs objs)[sel[k].toNat]? = some ((resolved minPtcs objs)[sel[k].toNat]'(by omega)) := List.getElem?_eq_getElem (by omega)
    generalize hobjdef : (resolved minPtcs objs)[sel[k].toNat]'(by omega) = obj at hob
    have hmemr : obj ∈ resolved minPtcs objs := List.mem_of_getElem? hob
    have hmem : obj ∈ objs := List.mem_of_mem_filter hmemr
    have hsize : minPtcs ≤ (obj.1.length : Int) := by
      have := (List.mem_filter.1 hmemr).2
      simpa using this
    have hne : obj.1 ≠ [] := by
      intro hnil
      rw [hnil] at hsize
      simp at hsize
      omega
    obtain ⟨o1, o2, omode, o34⟩ := hobj _ obj (List.getElem_mem hk) hob
    obtain ⟨r, hri, hnear, hcross⟩ := object_near happ hs hss hmin hob o1
    have hr := hnear.r200
    obtain ⟨row, hrow, hrl, hans⟩ := hrows k _ obj hz hob
    obtain ⟨v, hv, hans⟩ := hans fun p hp q hq a => (o1 p hp q hq a).le
    obtain ⟨o3, o4⟩ := o34 v hv
    obtain ⟨vs, hvs, hvse⟩ : ∃ vs : ι → Vec ℝ, (∀ a, Tendsto (fun i => vs i a) F (𝓝 (v a))) ∧
        ∀ᶠ i in F, plainCentre limit (longestSide (particlesOf (xyzs i) (ms i) obj.1)) center (particlesOf (xyzs i) (ms i) obj.1) = some (vs i) := by
      cases center with
      | mode =>
        exact C185_mode hnear.number hnear.pos hnear.mass (fun p hp => hs.masses_pos _ (mem_particlesOf hp).2) (selected_ne hs hmin hob)
          (longestSide_near hnear.number hnear.pos) (omode rfl) hv
      | com =>
        obtain rfl := Option.some.inj hv
        exact ⟨_, hnear.center, Filter.Eventually.of_forall fun i => rfl⟩
    have hidx : ∀ j ∈ obj.1, j < xyz.length := hs.exist obj hmem
    have hall : ∀ᶠ i in F, ∀ b ∈ Finset.range (wantedColumns katz whole),
        ¬ Degenerate (task katz sol (particlesOf (xyzs i) (ms i) obj.1) (vs i)
          (wantedVolume katz whole (r i) (6 * mpch c.h / c.inL) b)) ∧
        ∀ e e', row[b]? = some e →
          Answers (task katz sol (particlesOf (xyzs i) (ms i) obj.1) (vs i)
            (wantedVolume katz whole (r i) (6 * mpch c.h / c.inL) b)) c.inL c'.outL e' → CloseEntries ε e e' := by
      refine (Filter.eventually_all_finset _).2 fun b hb => ?_
      rw [Finset.mem_range] at hb
      have hbrow : row[b]? = some (row[b]'(by omega)) := List.getElem?_eq_getElem (by omega)
      have happr := task_near_at happ hs.lengths (fun i => (hss i).lengths) obj.1 hidx vs v hvs katz hradii sol hsol whole obj.2 (hr200 obj hmem) r hr
        (6 * mpch c.h / c.inL) b hb
      have := entry_near happr (o4 b hb) (fun hred p hp hz => by
          obtain ⟨x, hx, rfl⟩ := List.mem_map.1 hp
          refine o3 hred x hx (funext fun a => ?_)
          have := congrFun hz a
          exact sub_eq_zero.1 this) (by
          obtain ⟨p, hp, q, hq, hpq⟩ := o2
          exact ⟨_, List.mem_map_of_mem hp, _, List.mem_map_of_mem hq, hpq⟩) hc.inL hc'.outL (hans b _ hbrow) hε
      filter_upwards [this] with i hi
      refine ⟨hi.1, fun e e' he he' => ?_⟩
      rw [hbrow] at he
      obtain rfl := Option.some.inj he
      exact hi.2 e' he'
    filter_upwards [hcross, hvse, hall] with i h1 h0 h2 z obj' hz' hobj'
    rw [hz] at hz'
    obtain rfl := Option.some.inj hz'
    rw [hri i] at hobj'
    obtain rfl := Option.some.inj hobj'
    refine ⟨h1, vs i, h0, fun b hb => ⟨(h2 b (Finset.mem_range.2 hb)).1, fun row' e e' hrow' he he' => ?_⟩⟩
    rw [hrow] at hrow'
    obtain rfl := Option.some.inj hrow'
    exact (h2 b (Finset.mem_range.2 hb)).2 e e' he he'
  have hentries : ∀ᶠ i in F, ∀ k ∈ Finset.range sel.length, ∀ (z : Int) (obj' : List Nat × ℝ), sel[k]? = some z →
      (resolved minPtcs (objss i))[z.toNat]? = some obj' →
      NotCrossing box (particlesOf (xyzs i) (ms i) obj'.1) ∧
      ∃ v', plainCentre limit (longestSide (particlesOf (xyzs i) (ms i) obj'.1)) center (particlesOf (xyzs i) (ms i) obj'.1) = some v' ∧
      ∀ b < wantedColumns katz whole,
        ¬ Degenerate (task katz sol (particlesOf (xyzs i) (ms i) obj'.1) v'
          (wantedVolume katz whole obj'.2 (6 * mpch c.h / c.inL) b)) ∧
        ∀ row e e', res[k]? = some row → row[b]? = some e →
          Answers (task katz sol (particlesOf (xyzs i) (ms i) obj'.1) v'
            (wantedVolume katz whole obj'.2 (6 * mpch c.h / c.inL) b)) c.inL c'.outL e' → CloseEntries ε e e' :=
    (Filter.eventually_all_finset _).2 fun k hk => hentry k (Finset.mem_range.1 hk)
  filter_upwards [hentries] with i hi o' ho' out hout
  have hlr := resolved_length minPtcs (happ.members i)
  rcases shape_entries c c' hc hc' hh (xyzs i) (ms i) box (objss i) minPtcs hmin center (hss i) (hr200s i) sol hsol choose hch limit o' ho' katz htol hradii
    whole sel (by rw [hlr]; exact hsel) out hout with ⟨-, z, obj, hz, hob, hnone⟩ | ⟨-, k, z, obj', hz, hob, hdeg⟩ | ⟨res', rfl, hlen', hrows'⟩
  · exfalso
    obtain ⟨k, hk, rfl⟩ := List.getElem_of_mem hz
    obtain ⟨h1, v', hv', -⟩ := hi k (Finset.mem_range.2 hk) _ obj (List.getElem?_eq_getElem hk) hob
    rw [hnone h1] at hv'
    cases hv'
  · exfalso
    have hk : k < sel.length := (List.getElem?_eq_some_iff.1 hz).1
    obtain ⟨h1, v', hv', h2⟩ := hi k (Finset.mem_range.2 hk) z obj' hz hob
    obtain ⟨w, hw, b, hb, hd⟩ := hdeg h1
    obtain rfl : v' = w := by rw [hv'] at hw; exact Option.some.inj hw
    exact (h2 b hb).1 hd
  · refine ⟨res', rfl, by rw [hlen', hlen], fun k row row' hrow hrow' => ?_⟩
    have hk : k < sel.length := by rw [← hlen]; exact (List.getElem?_eq_some_iff.1 hrow).1
    have hz : sel[k]? = some sel[k] := List.getElem?_eq_getElem hk
    have hzr := hsel.2.2 _ (List.getElem_mem hk)
    have hob : (resolved minPtcs objs)[sel[k].toNat]? = some ((resolved minPtcs objs)[sel[k].toNat]'(by omega)) := List.getElem?_eq_getElem (by omega)
    have hob' : (resolved minPtcs (objss i))[sel[k].toNat]? = some ((resolved minPtcs (objss i))[sel[k].toNat]'(by omega)) :=
      List.getElem?_eq_getElem (by omega)
    obtain ⟨row₀, g1, g2, -⟩ := hrows k _ _ hz hob
    obtain rfl : row = row₀ := by rw [hrow] at g1; exact Option.some.inj g1
    obtain ⟨row₁, f1, f2, f3⟩ := hrows' k _ _ hz hob'
    obtain rfl : row' = row₁ := by rw [hrow'] at f1; exact Option.some.inj f1
    obtain ⟨h1, v', hv', h2⟩ := hi k (Finset.mem_range.2 hk) _ _ hz hob'
    obtain ⟨w, hw, hans⟩ := f3 h1
    obtain rfl : v' = w := by rw [hv'] at hw; exact Option.some.inj hw
    refine ⟨by rw [f2, g2], fun b e e' he he' => ?_⟩
    have hb : b < wantedColumns katz whole := by rw [← g2]; exact (List.getElem?_eq_some_iff.1 he).1
    exact (h2 b hb).2 row e e' hrow he (hans b e' he')

end

/-! ## The cross -/

theorem cross_side : longestSide (particlesOf crossXyz [1, 1, 1, 1, 1, 1] [0, 1, 2, 3, 4, 5]) = 6 := by
  have h0 : axisExtent (particlesOf crossXyz [1, 1, 1, 1, 1, 1] [0, 1, 2, 3, 4, 5]) 0 = 6 := by
    rw [cross_particles]
    norm_num [axisExtent, List.max?_cons', List.min?_cons']
  have h1 : axisExtent (particlesOf crossXyz [1, 1, 1, 1, 1, 1] [0, 1, 2, 3, 4, 5]) 1 = 4 := by
    rw [cross_particles]
    norm_num [axisExtent, List.max?_cons', List.min?_cons']
  have h2 : axisExtent (particlesOf crossXyz [1, 1, 1, 1, 1, 1] [0, 1, 2, 3, 4, 5]) 2 = 2 := by
    rw [cross_particles]
    simp only [axisExtent, List.map_cons, List.map_nil, vec3_2, List.max?_cons', List.min?_cons']
    norm_num
  unfold longestSide
  rw [h0, h1, h2]
  norm_num

theorem firstSphere_6 : FirstSphere 6 4 := firstSphere (last := 3) (by norm_num) (by norm_num) (by norm_num) (by norm_num)

/-- The cross meets the conditions of `C183_catalogue_any` with CENTER = 'mode': a call returns its shape, and calls with nearby arrays return
nearby ones. -/
example (h : ℝ) (hh : 0 < h) (sol : Solver) (hsol : GoodSolver sol) (choose : Nat → List Nat) (hch : ∀ n, 0 < n → ∃ j ∈ choose n, j < n) (limit : Nat)
    (hlimit : 5 ≤ limit) (ε : ℝ) (hε : 0 < ε) : ∃ o res, construct ⟨mpch h, Verif.Units.msunh10 h, 1, h, mpch h, Verif.Units.msunh10 h, 1⟩
      ⟨crossXyz, [1, 1, 1, 1, 1, 1], .nested [[0, 1, 2, 3, 4, 5]], .array [100], 20, 6, .mode⟩ = .ok o ∧
    GetShapeCat ⟨mpch h, Verif.Units.msunh10 h, 1, h, mpch h, Verif.Units.msunh10 h, 1⟩ sol choose limit o crossKatz false [0] (.ok res) ∧
    ∀ᶠ i : ℕ in atTop, ∀ o', construct ⟨mpch h, Verif.Units.msunh10 h, 1, h, mpch h, Verif.Units.msunh10 h, 1⟩
        ⟨wobblyXyz (1 / ((i : ℝ) + 1)), [1 + 1 / ((i : ℝ) + 1), 1, 1, 1, 1, 1], .nested [[0, 1, 2, 3, 4, 5]], .array [100 + 1 / ((i : ℝ) + 1)], 20, 6,
          .mode⟩ = .ok o' →
      ∀ out, GetShapeCat ⟨mpch h, Verif.Units.msunh10 h, 1, h, mpch h, Verif.Units.msunh10 h, 1⟩ sol choose limit o' crossKatz false [0] out →
        ∃ res', out = .ok res' ∧ res'.length = res.length ∧ ∀ (k : Nat) (row row' : List ShapeEntry), res[k]? = some row → res'[k]? = some row' →
          row'.length = row.length ∧ ∀ (b : Nat) (e e' : ShapeEntry), row[b]? = some e → row'[b]? = some e' → CloseEntries ε e e' := by
  have hpos : ∀ i : ℕ, 0 ≤ 1 / ((i : ℝ) + 1) := fun i => by positivity
  have hle : ∀ i : ℕ, 1 / ((i : ℝ) + 1) ≤ 1 := fun i => by
    rw [div_le_one (by positivity)]
    linarith [(Nat.cast_nonneg i : (0 : ℝ) ≤ i)]
  have hl := mpch_pos hh
  have hms := msunh10_pos hh
  have hcfg : (⟨mpch h, Verif.Units.msunh10 h, 1, h, mpch h, Verif.Units.msunh10 h, 1⟩ : Cfg ℝ).Pos := ⟨hl, hms, one_pos, hh, hl, hms, one_pos⟩
  have hres : resolved 6 [([0, 1, 2, 3, 4, 5], (100 : ℝ))] = [([0, 1, 2, 3, 4, 5], 100)] := by simp [resolved]
  have hsel : GoodSelection [0] (resolved 6 [([0, 1, 2, 3, 4, 5], (100 : ℝ))]).length := by
    rw [hres]
    exact ⟨by simp, by simp, by simp⟩
  have hthe : ∀ (z : Int) (obj : List Nat × ℝ), z ∈ ([0] : List Int) → (resolved 6 [([0, 1, 2, 3, 4, 5], (100 : ℝ))])[z.toNat]? = some obj →
      obj = ([0, 1, 2, 3, 4, 5], 100) := by
    intro z obj hz hob
    simp only [List.mem_singleton] at hz
    subst hz
    rw [hres] at hob
    exact (Option.some.inj hob).symm
  have hmode : plainCentre limit (longestSide (particlesOf crossXyz [1, 1, 1, 1, 1, 1] [0, 1, 2, 3, 4, 5])) .mode
      (particlesOf crossXyz [1, 1, 1, 1, 1, 1] [0, 1, 2, 3, 4, 5]) = some ![5, 5, 5] := by
    rw [cross_side]
    have := cross_mode firstSphere_6 limit 0 (by omega) (by omega)
    rw [pow_zero, mul_one] at this
    exact this
  have hgen : ∀ b < wantedColumns crossKatz false, Generic (task crossKatz sol (particlesOf crossXyz [1, 1, 1, 1, 1, 1] [0, 1, 2, 3, 4, 5]) ![5, 5, 5]
      (wantedVolume crossKatz false 100 (6 * mpch h / mpch h) b)) := by
    intro b hb
    obtain rfl : b = 0 := by
      have : b < 1 := hb
      omega
    have hw : wantedVolume crossKatz false 100 (6 * mpch h / mpch h) 0 = (100, none) := by
      unfold wantedVolume crossKatz
      simp
    rw [hw, ← cross_mean]
    exact cross_generic sol
  have hin : ∀ p ∈ particlesOf crossXyz [1, 1, 1, 1, 1, 1] [0, 1, 2, 3, 4, 5], ∀ q ∈ particlesOf crossXyz [1, 1, 1, 1, 1, 1] [0, 1, 2, 3, 4, 5], ∀ a,
      |p.pos a - q.pos a| < 20 / 2 := by
    intro p hp q hq a
    have h1 := cross_bounds p hp a
    have h2 := cross_bounds q hq a
    rw [abs_lt]
    constructor <;> linarith
  obtain ⟨o, ho⟩ : ∃ o, construct ⟨mpch h, Verif.Units.msunh10 h, 1, h, mpch h, Verif.Units.msunh10 h, 1⟩
      ⟨crossXyz, [1, 1, 1, 1, 1, 1], .nested ([([0, 1, 2, 3, 4, 5], (100 : ℝ))].map Prod.fst),
      .array ([([0, 1, 2, 3, 4, 5], (100 : ℝ))].map Prod.snd), 20, 6, .mode⟩ = .ok o :=
    ⟨_, construct_eq _ crossXyz _ 20 [([0, 1, 2, 3, 4, 5], 100)] 6 .mode cross_sensible.lengths cross_sensible.objects⟩
  obtain ⟨out, hrun⟩ := C106_outcome_exists _ ⟨mpch h, Verif.Units.msunh10 h, 1, h, mpch h, Verif.Units.msunh10 h, 1⟩ crossXyz _ 20
    [([0, 1, 2, 3, 4, 5], 100)] 6 (by norm_num) .mode cross_sensible sol choose limit o ho crossKatz false [0] hsel
  have htol : crossKatz.tol < 1 := by show (1 / 10 : ℝ) < 1; norm_num
  have hrad : ∀ r ∈ crossKatz.radii, 0 < r := by simp [crossKatz]
  rcases shape_entries _ _ hcfg hcfg rfl crossXyz _ 20 [([0, 1, 2, 3, 4, 5], 100)] 6 (by norm_num) .mode cross_sensible (by simp) sol hsol choose hch limit
    o ho crossKatz htol hrad false [0] hsel out hrun with ⟨-, z, obj, hz, hob, hnone⟩ | ⟨-, k, z, obj, hz, hob, hdeg⟩ | ⟨res, rfl, -⟩
  · exfalso
    obtain rfl := hthe z obj hz hob
    rw [hmode] at hnone
    cases hnone fun p hp q hq a => (hin p hp q hq a).le
  · exfalso
    obtain rfl := hthe z obj (List.mem_of_getElem? hz) hob
    obtain ⟨v, hv, b, hb, hd⟩ := hdeg fun p hp q hq a => (hin p hp q hq a).le
    rw [hmode] at hv
    obtain rfl := Option.some.inj hv
    obtain rfl : b = 0 := by
      have : b < 1 := hb
      omega
    have hw : wantedVolume crossKatz false 100 (6 * mpch h / mpch h) 0 = (100, none) := by
      unfold wantedVolume crossKatz
      simp
    rw [hw, ← cross_mean] at hd
    exact cross_not_degenerate sol hd
  · refine ⟨o, res, ho, hrun, ?_⟩
    exact C183_catalogue_any _ _ hcfg hcfg rfl crossXyz _ 20 [([0, 1, 2, 3, 4, 5], 100)] 6 (by norm_num) .mode cross_sensible (by simp) _ _ _
      (fun i => wobbly_sensible _ (hpos i) (hle i) (100 + 1 / ((i : ℝ) + 1))) (fun i => by simpa using by positivity) cross_approach sol hsol choose hch limit
      crossKatz htol hrad false [0] hsel (fun z obj hz hob => by
        obtain rfl := hthe z obj hz hob
        refine ⟨hin, ?_, fun _ => ?_, fun v hv => ⟨fun hred => (by cases hred), ?_⟩⟩
        · rw [cross_particles]
          refine ⟨⟨![8, 5, 5], 1⟩, by simp, ⟨![2, 5, 5], 1⟩, by simp, fun hc => ?_⟩
          have := congrFun hc 0
          norm_num at this
        · rw [cross_side]
          exact cross_off firstSphere_6
        · rw [hmode] at hv
          obtain rfl := Option.some.inj hv
          exact hgen) o ho res hrun ε hε

end Verif.Api
