import Verif.Api.ShapesProps
import Verif.Shapes.Round

/-!
# Round objects, from construction of an object to its shapes (C126)
-/

namespace Verif.Api

open Verif.Units Verif.Catalogue Verif.Periodic Verif.Par
open Verif.Shapes (Solver GoodSolver Pt Config quarterX quarterZ Round turnAbout members sphere)

/-! ## Specification -/

/-- Up to the order of particles, the object is the same after quarter turns about the first and about the third axis
through `centre`. -/
def RoundAbout (centre : Vec ℝ) (ps : List (Particle ℝ)) : Prop :=
  (ps.map fun p => (⟨fun i => centre i + quarterZ (fun k => p.pos k - centre k) i, p.mass⟩ : Particle ℝ)).Perm ps ∧
  (ps.map fun p => (⟨fun i => centre i + quarterX (fun k => p.pos k - centre k) i, p.mass⟩ : Particle ℝ)).Perm ps

/-- Squared distance. -/
def sqDist (a b : Vec ℝ) : ℝ := (a 0 - b 0) ^ 2 + (a 1 - b 1) ^ 2 + (a 2 - b 2) ^ 2

/-- Inside the sphere of radius `dδ.1` and, if there is a thickness other than the radius, in the shell of that thickness. -/
def Within (centre : Vec ℝ) (dδ : ℝ × Option ℝ) (x : Vec ℝ) : Prop :=
  sqDist x centre < dδ.1 ^ 2 ∧ ∀ δ, dδ.2 = some δ → dδ.1 ≠ δ → (dδ.1 - δ) ^ 2 ≤ sqDist x centre

open Classical in
/-- Enough particles for a shape, not all at the centre (none of them for the reduced tensor). -/
def Enough (katz : Katz) (centre : Vec ℝ) (ps : List (Particle ℝ)) (dδ : ℝ × Option ℝ) : Prop :=
  katz.itMin ≤ ((ps.filter fun p => decide (Within centre dδ p.pos)).length : Int) ∧
  (∃ p ∈ ps, Within centre dδ p.pos ∧ p.pos ≠ centre) ∧
  (katz.reduced = true → ∀ p ∈ ps, Within centre dδ p.pos → p.pos ≠ centre)

/-! ## Proofs -/

theorem weightedMean_round (centre : Vec ℝ) (ps : List (Particle ℝ)) (hM : totalMass ps ≠ 0) (h : RoundAbout centre ps) :
    weightedMean ps = centre := by
  have hsum : ∀ (T : Vec ℝ → Vec ℝ) (i : Fin 3),
      (ps.map fun p => (⟨fun i => centre i + T (fun k => p.pos k - centre k) i, p.mass⟩ : Particle ℝ)).Perm ps →
      (ps.map fun p => p.mass * T (fun k => p.pos k - centre k) i).sum = (ps.map fun p => p.mass * (p.pos i - centre i)).sum := by
    intro T i hp
    have := (hp.map fun p => p.mass * (p.pos i - centre i)).sum_eq
    rw [List.map_map] at this
    rw [← this]
    congr 2
    funext p
    simp
  have hneg : ∀ i, (ps.map fun p => p.mass * -(p.pos i - centre i)).sum = -(ps.map fun p => p.mass * (p.pos i - centre i)).sum := by
    intro i
    generalize ps = l
    induction l with
    | nil => simp
    | cons a l ih => simp only [List.map_cons, List.sum_cons, ih]; ring
  have z0 := hsum quarterZ 0 h.1
  have z1 := hsum quarterZ 1 h.1
  have x1 := hsum quarterX 1 h.2
  have x2 := hsum quarterX 2 h.2
  simp only [Shapes.qz0, Shapes.qz1, Shapes.qx1, Shapes.qx2, hneg] at z0 z1 x1 x2
  have hzero : ∀ i, (ps.map fun p => p.mass * (p.pos i - centre i)).sum = 0 := by
    intro i
    fin_cases i <;> simp only [Fin.zero_eta, Fin.mk_one, Fin.reduceFinMk] <;> linarith
  funext i
  have h1 : (ps.map fun p => p.mass * (p.pos i - centre i)).sum = (ps.map fun p => p.mass * p.pos i).sum - centre i * totalMass ps := by
    unfold totalMass
    generalize ps = l
    induction l with
    | nil => simp
    | cons a l ih => simp only [List.map_cons, List.sum_cons, ih]; ring
  have h2 := hzero i
  unfold weightedMean
  rw [div_eq_iff hM]
  linarith

theorem task_round (katz : Katz) (sol : Solver) (ps : List (Particle ℝ)) (centre : Vec ℝ) (dδ : ℝ × Option ℝ)
    (h : RoundAbout centre ps) : Round (task katz sol ps centre dδ) := by
  constructor
  · have := h.1.map fun p => (⟨p.pos, p.pos, p.mass⟩ : Pt)
    rw [List.map_map] at this
    unfold task
    simp only
    rw [List.map_map]
    exact this
  · have := h.2.map fun p => (⟨p.pos, p.pos, p.mass⟩ : Pt)
    rw [List.map_map] at this
    unfold task
    simp only
    rw [List.map_map]
    exact this

open Classical in
theorem task_members (katz : Katz) (sol : Solver) (ps : List (Particle ℝ)) (centre : Vec ℝ) (dδ : ℝ × Option ℝ) :
    members (task katz sol ps centre dδ) sphere =
      (ps.filter fun p => decide (Within centre dδ p.pos)).map fun p => ⟨p.pos, p.pos, p.mass⟩ := by
  unfold members task
  simp only
  rw [List.filter_map]
  congr 1
  apply List.filter_congr
  intro p _
  simp only [Function.comp_def]
  rw [decide_eq_decide]
  rw [Shapes.inside_sphere]
  unfold Within
  have e : Shapes.dot (Shapes.rel ⟨ps.map fun p => ⟨p.pos, p.pos, p.mass⟩, centre, centre, dδ.1, dδ.2, katz.tol, katz.wall, katz.itMin,
      katz.reduced, sol⟩ ⟨p.pos, p.pos, p.mass⟩) (Shapes.rel ⟨ps.map fun p => ⟨p.pos, p.pos, p.mass⟩, centre, centre, dδ.1, dδ.2,
      katz.tol, katz.wall, katz.itMin, katz.reduced, sol⟩ ⟨p.pos, p.pos, p.mass⟩) = sqDist p.pos centre := by
    unfold Shapes.dot Shapes.rel sqDist
    ring
  rw [e]
  apply and_congr_right'
  apply forall_congr'
  intro δ
  apply forall_congr'
  intro _
  apply forall_congr'
  intro hd
  have : 0 < (dδ.1 - δ) ^ 2 := by
    have : dδ.1 - δ ≠ 0 := sub_ne_zero.2 hd
    positivity
  rw [le_div_iff₀ this, one_mul]

/-- C126, for the calls `getShapeCatLocal` and `getShapeCatGlobal` with `CENTER = 'com'`.  If every selected object does not
cross a face of the box, looks the same after quarter turns about two axes through some point, and has enough particles in all
spheres (or shells) which are wanted, then the call succeeds and reports each of them converged, with three equal axes of the
wanted length. -/
theorem C126_reported (c c' : Cfg ℝ) (hc : c.Pos) (hc' : c'.Pos) (hh : c'.h = c.h)
    (xyz : List (Vec ℝ)) (masses : List ℝ) (box : ℝ) (objs : List (List Nat × ℝ)) (minPtcs : Int)
    (hmin : 1 ≤ minPtcs) (hs : Sensible xyz masses box objs)
    (hr200 : ∀ o ∈ objs, 0 < o.2) (sol : Solver) (hsol : GoodSolver sol)
    (choose : Nat → List Nat) (hch : ∀ n, 0 < n → ∃ j ∈ choose n, j < n) (limit : Nat) (o : Obj)
    (ho : construct c ⟨xyz, masses, .nested (objs.map Prod.fst), .array (objs.map Prod.snd), box,
      minPtcs, .com⟩ = .ok o)
    (katz : Katz) (h0 : 0 ≤ katz.tol) (htol : katz.tol < 1) (hw : 1 ≤ katz.wall) (hradii : ∀ r ∈ katz.radii, 0 < r)
    (whole : Bool) (sel : List Int) (hsel : GoodSelection sel (resolved minPtcs objs).length)
    (hround : ∀ z ∈ sel, ∀ obj, (resolved minPtcs objs)[z.toNat]? = some obj →
      NotCrossing box (particlesOf xyz masses obj.1) ∧
      ∃ centre, RoundAbout centre (particlesOf xyz masses obj.1) ∧
        ∀ b < wantedColumns katz whole, Enough katz centre (particlesOf xyz masses obj.1)
          (wantedVolume katz whole obj.2 (6 * mpch c.h / c.inL) b))
    (out : Except ShapeErr (List (List ShapeEntry)))
    (hrun : GetShapeCat c' sol choose limit o katz whole sel out) :
    ∃ res, out = .ok res ∧ res.length = sel.length ∧
      ∀ (k : Nat) (z : Int) (obj : List Nat × ℝ), sel[k]? = some z → (resolved minPtcs objs)[z.toNat]? = some obj →
        ∃ row : List ShapeEntry, res[k]? = some row ∧ row.length = wantedColumns katz whole ∧
        ∀ (b : Nat) (e : ShapeEntry), row[b]? = some e → e.conv = true ∧ e.q = some 1 ∧ e.s = some 1 ∧
          ∃ d, e.d = some d ∧ d * c'.outL = (wantedVolume katz whole obj.2 (6 * mpch c.h / c.inL) b).1 * c.inL := by
  -- what is known about the task of a selected object
  have hparts : ∀ (k : Nat) (z : Int) (obj : List Nat × ℝ), sel[k]? = some z → (resolved minPtcs objs)[z.toNat]? = some obj →
      ∀ sub, sub.Sublist (particlesOf xyz masses obj.1) → sub ≠ [] → (Center.com = .com → sub = particlesOf xyz masses obj.1) →
      ∀ b < wantedColumns katz whole, ∀ cfg, cfg = task katz sol (particlesOf xyz masses obj.1) (weightedMean sub)
        (wantedVolume katz whole obj.2 (6 * mpch c.h / c.inL) b) →
        Round cfg ∧ ¬ Shapes.Unclassifiable cfg ∧ ¬ Shapes.Degenerate cfg ∧
        ¬ ∀ p ∈ cfg.pts, ∀ p' ∈ cfg.pts, p.x = p'.x := by
    intro k z obj hk hobj sub hsub hne hsubeq b hb cfg hcfg
    obtain ⟨hnc, centre, hR, hE⟩ := hround z (List.mem_of_getElem? hk) obj hobj
    obtain rfl := hsubeq rfl
    have hmpos : ∀ p ∈ particlesOf xyz masses obj.1, 0 < p.mass := by
      intro p hp
      exact hs.masses_pos _ (mem_particlesOf hp).2
    have hM : totalMass (particlesOf xyz masses obj.1) ≠ 0 := by
      apply ne_of_gt
      unfold totalMass
      apply List.sum_pos
      · simp only [List.mem_map]
        rintro _ ⟨p, hp, rfl⟩
        exact hmpos p hp
      · exact fun h => hne (List.map_eq_nil_iff.1 h)
    rw [weightedMean_round centre _ hM hR] at hcfg
    obtain ⟨hlen, ⟨p, hp, hpw, hpc⟩, hrd⟩ := hE b hb
    subst hcfg
    have hround' := task_round katz sol _ _ (wantedVolume katz whole obj.2 (6 * mpch c.h / c.inL) b) hR
    have hmem := task_members katz sol (particlesOf xyz masses obj.1) centre
      (wantedVolume katz whole obj.2 (6 * mpch c.h / c.inL) b)
    have hpts : ∀ p ∈ (task katz sol (particlesOf xyz masses obj.1) centre
        (wantedVolume katz whole obj.2 (6 * mpch c.h / c.inL) b)).pts, 0 < p.m := by
      intro p hp
      obtain ⟨p', hp', rfl⟩ := List.mem_map.1 hp
      exact hmpos p' hp'
    refine ⟨hround', ?_, ?_, ?_⟩
    · apply Shapes.classifiable_round _ hround' h0 hw
      rw [hmem, List.length_map]
      exact hlen
    · apply Shapes.not_degenerate_round _ hround' h0 hpts
      · rw [hmem]
        refine ⟨⟨p.pos, p.pos, p.mass⟩, List.mem_map.2 ⟨p, List.mem_filter.2 ⟨hp, by simpa using hpw⟩, rfl⟩, ?_⟩
        intro h
        apply hpc
        funext i
        have := congrFun h i
        exact sub_eq_zero.1 this
      · intro hr p' hp'
        rw [hmem] at hp'
        obtain ⟨p'', hp'', rfl⟩ := List.mem_map.1 hp'
        obtain ⟨h1, h2⟩ := List.mem_filter.1 hp''
        intro h
        apply hrd hr p'' h1 (by simpa using h2)
        funext i
        have := congrFun h i
        exact sub_eq_zero.1 this
    · intro hall
      -- a particle away from the centre has a partner elsewhere
      have hT := List.Perm.mem_iff (a := (⟨fun i => centre i + quarterZ (fun k => p.pos k - centre k) i, p.mass⟩ : Particle ℝ)) hR.1
      have hT' := List.Perm.mem_iff (a := (⟨fun i => centre i + quarterX (fun k => p.pos k - centre k) i, p.mass⟩ : Particle ℝ)) hR.2
      have m1 := hT.1 (List.mem_map.2 ⟨p, hp, rfl⟩)
      have m2 := hT'.1 (List.mem_map.2 ⟨p, hp, rfl⟩)
      have e1 := hall ⟨p.pos, p.pos, p.mass⟩ (List.mem_map.2 ⟨p, hp, rfl⟩) _ (List.mem_map.2 ⟨_, m1, rfl⟩)
      have e2 := hall ⟨p.pos, p.pos, p.mass⟩ (List.mem_map.2 ⟨p, hp, rfl⟩) _ (List.mem_map.2 ⟨_, m2, rfl⟩)
      have a0 := congrFun e1 0
      have a1 := congrFun e1 1
      have b1 := congrFun e2 1
      have b2 := congrFun e2 2
      simp only [Shapes.qz0, Shapes.qz1, Shapes.qx1, Shapes.qx2] at a0 a1 b1 b2
      apply hpc
      funext i
      fin_cases i <;> simp only [Fin.zero_eta, Fin.mk_one, Fin.reduceFinMk] <;> linarith
  rcases C106_shapes_partial c c' hc hc' hh xyz masses box objs minPtcs hmin .com hs hr200 sol hsol choose hch limit o ho katz htol
    hradii whole sel hsel out hrun with ⟨-, h⟩ | ⟨-, k, z, obj, hk, hobj, h⟩ | ⟨res, h1, h2, h3⟩
  · cases h
  · obtain ⟨sub, f1, f2, f3, b, hb, hd⟩ := h (hround z (List.mem_of_getElem? hk) obj hobj).1
    exact absurd hd (hparts k z obj hk hobj sub f1 f2 f3 b hb _ rfl).2.2.1
  · refine ⟨res, h1, h2, ?_⟩
    intro k z obj hk hobj
    obtain ⟨row, g1, g2, g3⟩ := h3 k z obj hk hobj
    obtain ⟨sub, f1, f2, f3, f4⟩ := g3 (hround z (List.mem_of_getElem? hk) obj hobj).1
    refine ⟨row, g1, g2, ?_⟩
    intro b e he
    have hb : b < wantedColumns katz whole := by
      rw [← g2]
      exact (List.getElem?_eq_some_iff.1 he).1
    obtain ⟨t1, t2, t3, t4⟩ := hparts k z obj hk hobj sub f1 f2 f3 b hb _ rfl
    rcases f4 b e he with ⟨-, -, -, -, -, hu | hu⟩ | ⟨m, d, hm, ec, eq, es, ed, hdd, -⟩
    · exact absurd hu t2
    · exact absurd hu t4
    · obtain ⟨u1, u2, u3⟩ := Shapes.classified_round _ t1 h0 m hm
      exact ⟨ec, by rw [eq, u1], by rw [es, u2], d, ed, hdd⟩

/-- Six particles at distance 2 from (5, 5, 5) along the axes are round, and enough for a shape within 3. -/
example : RoundAbout ![5, 5, 5] [⟨![7, 5, 5], 1⟩, ⟨![3, 5, 5], 1⟩, ⟨![5, 7, 5], 1⟩, ⟨![5, 3, 5], 1⟩, ⟨![5, 5, 7], 1⟩,
      ⟨![5, 5, 3], 1⟩] ∧
    Enough ⟨[1], 1 / 10, 100, 6, true, false⟩ ![5, 5, 5] [⟨![7, 5, 5], 1⟩, ⟨![3, 5, 5], 1⟩, ⟨![5, 7, 5], 1⟩, ⟨![5, 3, 5], 1⟩,
      ⟨![5, 5, 7], 1⟩, ⟨![5, 5, 3], 1⟩] (3, none) := by
  have v2 : ∀ a b c : ℝ, (![a, b, c] : Vec ℝ) 2 = c := fun _ _ _ => rfl
  have e : ∀ (a b c m : ℝ) (v : Vec ℝ), v 0 = a → v 1 = b → v 2 = c → (⟨v, m⟩ : Particle ℝ) = ⟨![a, b, c], m⟩ := by
    intro a b c m v h0 h1 h2
    congr 1
    funext i
    fin_cases i
    · exact h0
    · exact h1
    · exact h2
  have hw : ∀ p ∈ ([⟨![7, 5, 5], 1⟩, ⟨![3, 5, 5], 1⟩, ⟨![5, 7, 5], 1⟩, ⟨![5, 3, 5], 1⟩, ⟨![5, 5, 7], 1⟩,
      ⟨![5, 5, 3], 1⟩] : List (Particle ℝ)), Within ![5, 5, 5] (3, none) p.pos ∧ p.pos ≠ ![5, 5, 5] := by
    intro p hp
    simp only [List.mem_cons, List.not_mem_nil, or_false] at hp
    have hne : ∀ (v w : Vec ℝ) (i : Fin 3), v i ≠ w i → v ≠ w := fun v w i h h' => h (congrFun h' i)
    rcases hp with rfl | rfl | rfl | rfl | rfl | rfl
    all_goals refine ⟨⟨by norm_num [sqDist, v2], by simp⟩, ?_⟩
    · exact hne _ _ 0 (by norm_num)
    · exact hne _ _ 0 (by norm_num)
    · exact hne _ _ 1 (by norm_num)
    · exact hne _ _ 1 (by norm_num)
    · exact hne _ _ 2 (by norm_num [v2])
    · exact hne _ _ 2 (by norm_num [v2])
  have hz : ∀ x y z : ℝ, (⟨fun i => ![5, 5, 5] i + quarterZ (fun k => ![x, y, z] k - ![5, 5, 5] k) i, 1⟩ : Particle ℝ) =
      ⟨![10 - y, x, z], 1⟩ := by
    intro x y z
    apply e
    · rw [Shapes.qz0]; simp; ring
    · rw [Shapes.qz1]; simp
    · rw [Shapes.qz2]; simp [v2]
  have hx : ∀ x y z : ℝ, (⟨fun i => ![5, 5, 5] i + quarterX (fun k => ![x, y, z] k - ![5, 5, 5] k) i, 1⟩ : Particle ℝ) =
      ⟨![x, 10 - z, y], 1⟩ := by
    intro x y z
    apply e
    · rw [Shapes.qx0]; simp
    · rw [Shapes.qx1]; simp [v2]; ring
    · rw [Shapes.qx2]; simp [v2]
  have n5 : (10 : ℝ) - 5 = 5 := by norm_num
  have n3 : (10 : ℝ) - 3 = 7 := by norm_num
  have n7 : (10 : ℝ) - 7 = 3 := by norm_num
  refine ⟨⟨?_, ?_⟩, ?_, ?_, ?_⟩
  · simp only [List.map_cons, List.map_nil, hz, n5, n3, n7]
    classical
    rw [List.perm_iff_count]
    intro x
    simp only [List.count_cons, List.count_nil]
    omega
  · simp only [List.map_cons, List.map_nil, hx, n5, n3, n7]
    classical
    rw [List.perm_iff_count]
    intro x
    simp only [List.count_cons, List.count_nil]
    omega
  · rw [List.filter_eq_self.2 fun p hp => by simpa using (hw p hp).1]
    simp
  · exact ⟨_, List.mem_cons_self, hw _ List.mem_cons_self⟩
  · exact fun _ p hp _ => (hw p hp).2

end Verif.Api
