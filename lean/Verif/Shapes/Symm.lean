import Verif.Shapes.Trace

/-!
# Symmetries of the iteration

The result is unchanged if the particles are listed in another order, positions and center are
translated together, the vectors entering the tensor and their center are translated together, and
masses are multiplied by a common non-zero factor.
-/

namespace Verif.Shapes

open Classical in
theorem mapM_closed {α β : Type} (f : α → Option β) (dflt : β) (l : List α) :
    l.mapM f = if ∀ a ∈ l, (f a).isSome then some (l.map fun a => (f a).getD dflt) else none := by
  induction l with
  | nil => simp
  | cons a l ih =>
    rw [List.mapM_cons, ih]
    cases hf : f a with
    | none => simp [hf]
    | some b =>
      by_cases h : ∀ a ∈ l, (f a).isSome
      · rw [if_pos h, if_pos]
        · simp [hf]
        · intro a' ha'
          rcases List.mem_cons.1 ha' with rfl | h'
          · simp [hf]
          · exact h _ h'
      · rw [if_neg h, if_neg (by intro h'; exact h fun a ha => h' a (by simp [ha]))]
        rfl

open Classical in
theorem pureEntry_closed (cfg : Config) (mt : ℝ) (sel : Sel) (i j : Fin 3) :
    pureEntry cfg mt sel i j = if ∀ pr ∈ sel, (tensorTerm cfg mt pr.1 pr.2 i j).isSome then
      some ((sel.map fun pr => (tensorTerm cfg mt pr.1 pr.2 i j).getD 0).sum) else none := by
  have gen : ∀ (sel : Sel) (a : ℝ),
      sel.foldlM (fun acc pr => (tensorTerm cfg mt pr.1 pr.2 i j).map (acc + ·)) a =
      if ∀ pr ∈ sel, (tensorTerm cfg mt pr.1 pr.2 i j).isSome then
        some (a + (sel.map fun pr => (tensorTerm cfg mt pr.1 pr.2 i j).getD 0).sum) else none := by
    intro sel
    induction sel with
    | nil => intro a; simp
    | cons pr sel ih =>
      intro a
      rw [List.foldlM_cons]
      cases ht : tensorTerm cfg mt pr.1 pr.2 i j with
      | none => simp [ht]
      | some w =>
        simp only [Option.map_some, Option.bind_eq_bind, Option.bind_some]
        rw [ih]
        by_cases h : ∀ pr ∈ sel, (tensorTerm cfg mt pr.1 pr.2 i j).isSome
        · rw [if_pos h, if_pos]
          · simp [ht, add_assoc]
          · intro pr' hpr'
            rcases List.mem_cons.1 hpr' with rfl | h'
            · simp [ht]
            · exact h _ h'
        · rw [if_neg h, if_neg (by intro h'; exact h fun a ha => h' a (by simp [ha]))]
  unfold pureEntry
  rw [gen]
  simp

/-- The two problems are the same up to order, origin and unit of mass. -/
structure Same (g : Pt → Pt) (k : ℝ) (cfg cfg' : Config) : Prop where
  pts : cfg'.pts.Perm (cfg.pts.map g)
  x : ∀ p ∈ cfg.pts, ∀ i, (g p).x i - cfg'.center i = p.x i - cfg.center i
  src : ∀ p ∈ cfg.pts, ∀ i, (g p).src i - cfg'.srcCenter i = p.src i - cfg.srcCenter i
  m : ∀ p ∈ cfg.pts, (g p).m = k * p.m
  k : k ≠ 0
  d : cfg'.d = cfg.d
  deltaD : cfg'.deltaD = cfg.deltaD
  tol : cfg'.tol = cfg.tol
  wall : cfg'.wall = cfg.wall
  itMin : cfg'.itMin = cfg.itMin
  reduced : cfg'.reduced = cfg.reduced
  solver : cfg'.solver = cfg.solver

section
variable {g : Pt → Pt} {k : ℝ} {cfg cfg' : Config} (h : Same g k cfg cfg')
include h

theorem Same.cx (p : Pt) (hp : p ∈ cfg.pts) (i : Fin 3) :
    cfg'.center i - (g p).x i = cfg.center i - p.x i := by
  have := h.x p hp i; linarith

theorem Same.toPrinc (major inter minor : Vec ℝ) (p : Pt) (hp : p ∈ cfg.pts) :
    toPrinc cfg' major inter minor (g p) = toPrinc cfg major inter minor p := by
  unfold Shapes.toPrinc
  simp only [h.x p hp]

theorem Same.dist2 (p : Pt) (hp : p ∈ cfg.pts) :
    Binning.dist2 cfg'.center (g p).x = Binning.dist2 cfg.center p.x := by
  unfold Binning.dist2
  simp only [h.cx p hp]

theorem Same.initialTest (p : Pt) (hp : p ∈ cfg.pts) :
    initialTest cfg' (g p) = initialTest cfg p := by
  unfold Shapes.initialTest
  rw [h.dist2 p hp, h.d, h.deltaD]

theorem Same.radius0 (p : Pt) (hp : p ∈ cfg.pts) : radius0 cfg' (g p) = radius0 cfg p := by
  unfold Shapes.radius0
  simp only [h.cx p hp]

theorem Same.laterTest : laterTest cfg' = laterTest cfg := by
  funext q s y
  unfold Shapes.laterTest
  rw [h.d, h.deltaD]

theorem Same.diagonalise : diagonalise cfg' = diagonalise cfg := by
  funext t q s
  unfold Shapes.diagonalise
  rw [h.solver]

theorem Same.tensorTerm (mt : ℝ) (p : Pt) (hp : p ∈ cfg.pts) (r : ℝ) (i j : Fin 3) :
    tensorTerm cfg' (k * mt) (g p) r i j = tensorTerm cfg mt p r i j := by
  unfold Shapes.tensorTerm
  rw [h.src p hp, h.src p hp, h.m p hp, h.reduced]
  have hk := h.k
  have : (if cfg.reduced = true then k * mt * r ^ 2 else k * mt) =
      k * (if cfg.reduced = true then mt * r ^ 2 else mt) := by split <;> ring
  rw [this]
  generalize (if cfg.reduced = true then mt * r ^ 2 else mt) = w
  unfold cdiv
  by_cases hw : w = 0
  · simp [hw]
  · rw [if_neg hw, if_neg (mul_ne_zero hk hw), mul_assoc, mul_assoc, mul_div_mul_left _ _ hk,
      mul_assoc]

/-- Selections correspond. -/
def SelRel (g : Pt → Pt) (cfg : Config) (sel sel' : Sel) : Prop :=
  sel'.Perm (sel.map fun pr => (g pr.1, pr.2)) ∧ ∀ pr ∈ sel, pr.1 ∈ cfg.pts

theorem Same.entry {sel sel' : Sel} (hs : SelRel g cfg sel sel') (mt : ℝ) (i j : Fin 3) :
    pureEntry cfg' (k * mt) sel' i j = pureEntry cfg mt sel i j := by
  obtain ⟨hs, hmem⟩ := hs
  rw [pureEntry_closed, pureEntry_closed]
  have e1 : (∀ pr ∈ sel', (Shapes.tensorTerm cfg' (k * mt) pr.1 pr.2 i j).isSome) ↔
      ∀ pr ∈ sel, (Shapes.tensorTerm cfg mt pr.1 pr.2 i j).isSome := by
    constructor
    · intro hh pr hpr
      rw [← h.tensorTerm mt pr.1 (hmem pr hpr)]
      exact hh (g pr.1, pr.2) (hs.mem_iff.2 (List.mem_map_of_mem (f := fun pr : Pt × ℝ => (g pr.1, pr.2)) hpr))
    · intro hh pr' hpr'
      obtain ⟨pr, hpr, rfl⟩ := List.mem_map.1 (hs.mem_iff.1 hpr')
      rw [h.tensorTerm mt pr.1 (hmem pr hpr)]
      exact hh pr hpr
  have e2 : (sel'.map fun pr => (Shapes.tensorTerm cfg' (k * mt) pr.1 pr.2 i j).getD 0).sum =
      (sel.map fun pr => (Shapes.tensorTerm cfg mt pr.1 pr.2 i j).getD 0).sum := by
    rw [(hs.map _).sum_eq, List.map_map]
    congr 1
    apply List.map_congr_left
    intro pr hpr
    simp only [Function.comp]
    rw [h.tensorTerm mt pr.1 (hmem pr hpr)]
  rw [e2]
  exact if_congr e1 rfl rfl

theorem Same.mass {sel sel' : Sel} (hs : SelRel g cfg sel sel') :
    (sel'.map fun pr => pr.1.m).sum = k * (sel.map fun pr => pr.1.m).sum := by
  obtain ⟨hs, hmem⟩ := hs
  rw [(hs.map _).sum_eq, List.map_map, ← List.sum_map_mul_left]
  congr 1
  apply List.map_congr_left
  intro pr hpr
  exact h.m pr.1 (hmem pr hpr)

theorem Same.tensor {sel sel' : Sel} (hs : SelRel g cfg sel sel') :
    pureTensor cfg' sel' = pureTensor cfg sel := by
  unfold pureTensor
  simp only [h.mass hs, h.entry hs]

/-- Filtering both lists of particles. -/
theorem Same.select (P : Pt → Bool) (P' : Pt → Bool) (rho rho' : Pt → ℝ)
    (hP : ∀ p ∈ cfg.pts, P' (g p) = P p) (hr : ∀ p ∈ cfg.pts, rho' (g p) = rho p) :
    SelRel g cfg (select cfg.pts (cfg.pts.map rho) (cfg.pts.map P))
      (select cfg'.pts (cfg'.pts.map rho') (cfg'.pts.map P')) := by
  have f1 : ∀ (pts : List Pt) (P : Pt → Bool) (rho : Pt → ℝ),
      Shapes.select pts (pts.map rho) (pts.map P) = (pts.filter P).map fun p => (p, rho p) := by
    intro pts P rho
    apply select_spec
    · rw [List.forall₂_map_right_iff]; exact List.forall₂_same.2 fun _ _ => rfl
    · rw [List.forall₂_map_right_iff]; exact List.forall₂_same.2 fun _ _ => rfl
  rw [f1, f1]
  refine ⟨?_, ?_⟩
  · refine ((h.pts.filter _).map _).trans ?_
    rw [List.filter_map, List.map_map, List.map_map]
    have : cfg.pts.filter (P' ∘ g) = cfg.pts.filter P := by
      apply List.filter_congr
      intro p hp
      exact hP p hp
    rw [this]
    apply List.Perm.of_eq
    apply List.map_congr_left
    intro p hp
    simp only [Function.comp]
    rw [hr p (List.mem_of_mem_filter hp)]
  · intro pr hpr
    obtain ⟨p, hp, rfl⟩ := List.mem_map.1 hpr
    exact List.mem_of_mem_filter hp

/-- States of the iterations for an object and its image under `g`. -/
structure StRel (g : Pt → Pt) (cfg : Config) (st st' : PState) : Prop where
  q : st'.q = st.q
  s : st'.s = st.s
  err : st'.err = st.err
  iteration : st'.iteration = st.iteration
  morph : st'.morph = st.morph
  sel : SelRel g cfg st.sel st'.sel

theorem Same.all {β : Type} (f f' : Pt → Option β) (hf : ∀ p ∈ cfg.pts, f' (g p) = f p) :
    (∀ p ∈ cfg'.pts, (f' p).isSome) ↔ ∀ p ∈ cfg.pts, (f p).isSome := by
  constructor
  · intro hh p hp
    rw [← hf p hp]
    exact hh _ (h.pts.mem_iff.2 (List.mem_map_of_mem hp))
  · intro hh p' hp'
    obtain ⟨p, hp, rfl⟩ := List.mem_map.1 (h.pts.mem_iff.1 hp')
    rw [hf p hp]; exact hh p hp

theorem Same.iterate (st st' : PState) (hst : StRel g cfg st st') :
    (pureIterate cfg st = none ∧ pureIterate cfg' st' = none) ∨
    ∃ s1 s1', pureIterate cfg st = some s1 ∧ pureIterate cfg' st' = some s1' ∧ StRel g cfg s1 s1' := by
  unfold pureIterate
  rw [h.tensor hst.sel, h.diagonalise, hst.q, hst.s]
  cases pureTensor cfg st.sel with
  | none => left; exact ⟨rfl, rfl⟩
  | some t =>
    simp only [Option.bind_eq_bind, Option.bind_some]
    cases Shapes.diagonalise cfg t st.q st.s with
    | none => left; exact ⟨rfl, rfl⟩
    | some r =>
      obtain ⟨qn, sn, err, major, inter, minor⟩ := r
      simp only [Option.bind_some]
      rw [List.mapM_map, List.mapM_map, List.mapM_map, List.mapM_map, h.laterTest]
      rw [mapM_closed _ (0 : ℝ) cfg.pts, mapM_closed _ (0 : ℝ) cfg'.pts,
        mapM_closed _ false cfg.pts, mapM_closed _ false cfg'.pts]
      have hf1 : ∀ p ∈ cfg.pts, ((fun y => (ellRadius2 qn sn y).map Real.sqrt) ∘
          Shapes.toPrinc cfg' major inter minor) (g p) =
          ((fun y => (ellRadius2 qn sn y).map Real.sqrt) ∘ Shapes.toPrinc cfg major inter minor) p := by
        intro p hp
        simp only [Function.comp, h.toPrinc major inter minor p hp]
      have hf2 : ∀ p ∈ cfg.pts, (Shapes.laterTest cfg qn sn ∘
          Shapes.toPrinc cfg' major inter minor) (g p) =
          (Shapes.laterTest cfg qn sn ∘ Shapes.toPrinc cfg major inter minor) p := by
        intro p hp
        simp only [Function.comp, h.toPrinc major inter minor p hp]
      have a1 := h.all _ _ hf1
      have a2 := h.all _ _ hf2
      by_cases b1 : ∀ p ∈ cfg.pts, (((fun y => (ellRadius2 qn sn y).map Real.sqrt) ∘
          Shapes.toPrinc cfg major inter minor) p).isSome
      · rw [if_pos b1, if_pos (a1.2 b1)]
        by_cases b2 : ∀ p ∈ cfg.pts, ((Shapes.laterTest cfg qn sn ∘
            Shapes.toPrinc cfg major inter minor) p).isSome
        · rw [if_pos b2, if_pos (a2.2 b2)]
          right
          refine ⟨_, _, rfl, rfl, rfl, rfl, rfl, by simp only [hst.iteration], by simp only [h.d], ?_⟩
          apply h.select
          · intro p hp; rw [hf2 p hp]
          · intro p hp; rw [hf1 p hp]
        · rw [if_neg b2, if_neg (fun x => b2 (a2.1 x))]
          left; exact ⟨rfl, rfl⟩
      · rw [if_neg b1, if_neg (fun x => b1 (a1.1 x))]
        left; exact ⟨rfl, rfl⟩

theorem Same.step (st st' : PState) (hst : StRel g cfg st st') :
    (∃ r, pureStep cfg st = .stop r ∧ pureStep cfg' st' = .stop r) ∨
    ∃ s1 s1', pureStep cfg st = .go s1 ∧ pureStep cfg' st' = .go s1' ∧ StRel g cfg s1 s1' := by
  unfold pureStep
  rw [hst.err, h.tol]
  by_cases he : st.err > cfg.tol
  · rw [if_pos he, if_pos he, hst.iteration, h.wall]
    by_cases hw : (st.iteration : Int) > cfg.wall
    · rw [if_pos hw, if_pos hw]; exact Or.inl ⟨_, rfl, rfl⟩
    · have hl : st'.sel.length = st.sel.length := by
        rw [hst.sel.1.length_eq, List.length_map]
      rw [if_neg hw, if_neg hw, h.itMin, hl]
      by_cases hm : (st.sel.length : Int) < cfg.itMin
      · rw [if_pos hm, if_pos hm]; exact Or.inl ⟨_, rfl, rfl⟩
      · rw [if_neg hm, if_neg hm]
        rcases h.iterate st st' hst with ⟨e1, e2⟩ | ⟨s1, s1', e1, e2, hr⟩
        · rw [e1, e2]; exact Or.inl ⟨_, rfl, rfl⟩
        · rw [e1, e2]; exact Or.inr ⟨_, _, rfl, rfl, hr⟩
  · rw [if_neg he, if_neg he, hst.morph]; exact Or.inl ⟨_, rfl, rfl⟩

theorem Same.loop (fuel : Nat) (st st' : PState) (hst : StRel g cfg st st') :
    loop (pureStep cfg') fuel st' = loop (pureStep cfg) fuel st := by
  induction fuel generalizing st st' with
  | zero => rfl
  | succ fuel ih =>
    unfold Shapes.loop
    rcases h.step st st' hst with ⟨r, e1, e2⟩ | ⟨s1, s1', e1, e2, hr⟩
    · rw [e1, e2]
    · rw [e1, e2]; exact ih s1 s1' hr

theorem Same.run (fuel : Nat) (morph : Morph) : pureRun fuel cfg' morph = pureRun fuel cfg morph := by
  apply h.loop
  exact ⟨rfl, rfl, rfl, rfl, rfl, h.select _ _ _ _ (fun p hp => h.initialTest p hp)
    (fun p hp => h.radius0 p hp)⟩

end

end Verif.Shapes
