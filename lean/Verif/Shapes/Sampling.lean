import Verif.Shapes.Objects
import Verif.Shapes.Symm
import Verif.Periodic.Lemmas

/-!
# Shapes as functions of the distribution of mass

The iteration uses the particles only through sums weighted by mass, through the places which are occupied, and through the number of selected
particles (compared with `IT_MIN`).
-/

namespace Verif.Shapes

/-- Where a particle is (position, and vector entering the tensor). -/
abbrev Place := Vec ℝ × Vec ℝ

/-- Where the particle is. -/
def Pt.place (p : Pt) : Place := (p.x, p.src)

open Classical in
/-- Total mass at a place. -/
noncomputable def massAtPlace (pts : List Pt) (k : Place) : ℝ := (pts.map fun p => if p.place = k then p.m else 0).sum

/-- Sums weighted by mass in terms of the distribution. -/
theorem sum_by_place (pts : List Pt) (S : Finset Place) (hS : ∀ p ∈ pts, p.place ∈ S) (f : Place → ℝ) :
    (pts.map fun p => f p.place * p.m).sum = ∑ k ∈ S, f k * massAtPlace pts k := by
  classical
  induction pts with
  | nil => simp [massAtPlace]
  | cons p pts ih =>
    rw [List.map_cons, List.sum_cons, ih fun q hq => hS q (by simp [hq])]
    have : ∀ k, massAtPlace (p :: pts) k = (if p.place = k then p.m else 0) + massAtPlace pts k := by
      intro k
      unfold massAtPlace
      rw [List.map_cons, List.sum_cons]
    simp only [this, mul_add, Finset.sum_add_distrib]
    congr 1
    simp only [mul_ite, mul_zero]
    rw [Finset.sum_ite_eq, if_pos (hS p (by simp))]

theorem sum_of_masses (pts pts' : List Pt) (h : ∀ k, massAtPlace pts' k = massAtPlace pts k) (f : Place → ℝ) :
    (pts'.map fun p => f p.place * p.m).sum = (pts.map fun p => f p.place * p.m).sum := by
  classical
  have hS : ∀ p ∈ pts, p.place ∈ (pts.map Pt.place ++ pts'.map Pt.place).toFinset := by
    intro p hp
    simp only [List.mem_toFinset, List.mem_append, List.mem_map]
    exact .inl ⟨p, hp, rfl⟩
  have hS' : ∀ p ∈ pts', p.place ∈ (pts.map Pt.place ++ pts'.map Pt.place).toFinset := by
    intro p hp
    simp only [List.mem_toFinset, List.mem_append, List.mem_map]
    exact .inr ⟨p, hp, rfl⟩
  rw [sum_by_place pts _ hS, sum_by_place pts' _ hS']
  simp only [h]

theorem massAtPlace_pos (pts : List Pt) (hm : ∀ p ∈ pts, 0 < p.m) (k : Place) : k ∈ pts.map Pt.place ↔ 0 < massAtPlace pts k := by
  classical
  induction pts with
  | nil => simp [massAtPlace]
  | cons p pts ih =>
    have h0 : ∀ l : List Pt, (∀ p ∈ l, 0 < p.m) → 0 ≤ massAtPlace l k := by
      intro l hl
      apply List.sum_nonneg
      intro x hx
      obtain ⟨q, hq, rfl⟩ := List.mem_map.1 hx
      split
      · exact (hl q hq).le
      · exact le_rfl
    have e : massAtPlace (p :: pts) k = (if p.place = k then p.m else 0) + massAtPlace pts k := by
      unfold massAtPlace
      rw [List.map_cons, List.sum_cons]
    have ih := ih fun q hq => hm q (by simp [hq])
    have h1 := h0 pts fun q hq => hm q (by simp [hq])
    have h2 := hm p (by simp)
    rw [e, List.map_cons, List.mem_cons, ih]
    by_cases h : p.place = k
    · rw [if_pos h]
      exact ⟨fun _ => by linarith, fun _ => .inl h.symm⟩
    · rw [if_neg h, zero_add]
      exact ⟨fun h' => h'.resolve_left fun h'' => h h''.symm, .inr⟩

/-- The two problems have the same distribution of mass, and the number of particles has the same consequences. -/
structure SameMasses (cfg cfg' : Config) : Prop where
  mass : ∀ k, massAtPlace cfg'.pts k = massAtPlace cfg.pts k
  pos : ∀ p ∈ cfg.pts, 0 < p.m
  pos' : ∀ p ∈ cfg'.pts, 0 < p.m
  count : ∀ P : Place → Bool, (((cfg'.pts.filter fun p => P p.place).length : Int) < cfg'.itMin ↔
    ((cfg.pts.filter fun p => P p.place).length : Int) < cfg.itMin)
  center : cfg'.center = cfg.center
  srcCenter : cfg'.srcCenter = cfg.srcCenter
  d : cfg'.d = cfg.d
  deltaD : cfg'.deltaD = cfg.deltaD
  tol : cfg'.tol = cfg.tol
  wall : cfg'.wall = cfg.wall
  reduced : cfg'.reduced = cfg.reduced
  solver : cfg'.solver = cfg.solver

/-- Selections by place. -/
def SelPlace (cfg cfg' : Config) (sel sel' : Sel) : Prop :=
  ∃ (P : Place → Bool) (rho : Place → ℝ), sel = (cfg.pts.filter fun p => P p.place).map (fun p => (p, rho p.place)) ∧
    sel' = (cfg'.pts.filter fun p => P p.place).map fun p => (p, rho p.place)

section
variable {cfg cfg' : Config} (h : SameMasses cfg cfg')
include h

theorem SameMasses.places (k : Place) : k ∈ cfg'.pts.map Pt.place ↔ k ∈ cfg.pts.map Pt.place := by
  rw [massAtPlace_pos _ h.pos, massAtPlace_pos _ h.pos', h.mass]

theorem SameMasses.all (Q : Place → Prop) : (∀ p ∈ cfg'.pts, Q p.place) ↔ ∀ p ∈ cfg.pts, Q p.place := by
  have e : ∀ pts : List Pt, (∀ p ∈ pts, Q p.place) ↔ ∀ k ∈ pts.map Pt.place, Q k := by
    intro pts
    simp
  rw [e, e]
  simp only [h.places]

theorem SameMasses.sum (f : Place → ℝ) (P : Place → Bool) :
    ((cfg'.pts.filter fun p => P p.place).map fun p => f p.place * p.m).sum =
      ((cfg.pts.filter fun p => P p.place).map fun p => f p.place * p.m).sum := by
  have e : ∀ pts : List Pt, ((pts.filter fun p => P p.place).map fun p => f p.place * p.m).sum =
      (pts.map fun p => (if P p.place then f p.place else 0) * p.m).sum := by
    intro pts
    induction pts with
    | nil => rfl
    | cons p pts ih =>
      rw [List.filter_cons, List.map_cons, List.sum_cons]
      by_cases hp : P p.place
      · rw [if_pos hp, if_pos hp, List.map_cons, List.sum_cons, ih]
      · rw [if_neg hp, if_neg hp, ih]; ring
  rw [e, e]
  exact sum_of_masses _ _ h.mass fun k => if P k then f k else 0

theorem SameMasses.tensor {sel sel' : Sel} (hs : SelPlace cfg cfg' sel sel') : pureTensor cfg' sel' = pureTensor cfg sel := by
  obtain ⟨P, rho, rfl, rfl⟩ := hs
  have hmass : (((cfg'.pts.filter fun p => P p.place).map (fun p => (p, rho p.place))).map fun pr : Pt × ℝ => pr.1.m).sum =
      (((cfg.pts.filter fun p => P p.place).map (fun p => (p, rho p.place))).map fun pr : Pt × ℝ => pr.1.m).sum := by
    have := h.sum (fun _ => 1) P
    simpa [Function.comp_def] using this
  have hterm : ∀ (mt : ℝ) (p : Pt) (i j : Fin 3), tensorTerm cfg mt p (rho p.place) i j =
      if (if cfg.reduced then mt * rho p.place ^ 2 else mt) = 0 then none else
        some ((p.place.2 i - cfg.srcCenter i) * (p.place.2 j - cfg.srcCenter j) /
          (if cfg.reduced then mt * rho p.place ^ 2 else mt) * p.m) := by
    intro mt p i j
    unfold tensorTerm cdiv
    generalize (if cfg.reduced then mt * rho p.place ^ 2 else mt) = w
    split
    · rfl
    · congr 1
      unfold Pt.place
      ring
  have hterm' : ∀ (mt : ℝ) (p : Pt) (i j : Fin 3), tensorTerm cfg' mt p (rho p.place) i j =
      if (if cfg.reduced then mt * rho p.place ^ 2 else mt) = 0 then none else
        some ((p.place.2 i - cfg.srcCenter i) * (p.place.2 j - cfg.srcCenter j) /
          (if cfg.reduced then mt * rho p.place ^ 2 else mt) * p.m) := by
    intro mt p i j
    unfold tensorTerm cdiv
    rw [h.reduced, h.srcCenter]
    generalize (if cfg.reduced then mt * rho p.place ^ 2 else mt) = w
    split
    · rfl
    · congr 1
      unfold Pt.place
      ring
  have hentry : ∀ (mt : ℝ) (i j : Fin 3),
      pureEntry cfg' mt ((cfg'.pts.filter fun p => P p.place).map (fun p => (p, rho p.place))) i j =
      pureEntry cfg mt ((cfg.pts.filter fun p => P p.place).map (fun p => (p, rho p.place))) i j := by
    intro mt i j
    rw [pureEntry_closed, pureEntry_closed]
    refine if_congr ?_ ?_ rfl
    · simp only [List.forall_mem_map, List.mem_filter, and_imp, hterm, hterm']
      have := h.all fun k => P k = true → (if (if cfg.reduced then mt * rho k ^ 2 else mt) = 0 then (none : Option ℝ) else
        some 0).isSome
      refine Iff.trans ?_ (this.trans ?_)
      · refine forall_congr' fun p => forall_congr' fun _ => forall_congr' fun _ => ?_
        generalize (if cfg.reduced then mt * rho p.place ^ 2 else mt) = w
        split <;> simp
      · refine forall_congr' fun p => forall_congr' fun _ => forall_congr' fun _ => ?_
        generalize (if cfg.reduced then mt * rho p.place ^ 2 else mt) = w
        split <;> simp
    · congr 1
      rw [List.map_map, List.map_map]
      simp only [Function.comp_def, hterm, hterm']
      have := h.sum (fun k => if (if cfg.reduced then mt * rho k ^ 2 else mt) = 0 then 0 else
        (k.2 i - cfg.srcCenter i) * (k.2 j - cfg.srcCenter j) / (if cfg.reduced then mt * rho k ^ 2 else mt)) P
      have e : ∀ p : Pt, (if (if cfg.reduced then mt * rho p.place ^ 2 else mt) = 0 then none else
          some ((p.place.2 i - cfg.srcCenter i) * (p.place.2 j - cfg.srcCenter j) /
          (if cfg.reduced then mt * rho p.place ^ 2 else mt) * p.m)).getD 0 =
          (if (if cfg.reduced then mt * rho p.place ^ 2 else mt) = 0 then 0 else
          (p.place.2 i - cfg.srcCenter i) * (p.place.2 j - cfg.srcCenter j) / (if cfg.reduced then mt * rho p.place ^ 2 else mt)) * p.m := by
        intro p
        generalize (if cfg.reduced then mt * rho p.place ^ 2 else mt) = w
        split
        · simp
        · rfl
      simp only [e]
      exact this
  unfold pureTensor
  simp only [hmass, hentry]

theorem SameMasses.select (P : Place → Bool) (rho : Place → ℝ) :
    SelPlace cfg cfg' (select cfg.pts (cfg.pts.map fun p => rho p.place) (cfg.pts.map fun p => P p.place))
      (select cfg'.pts (cfg'.pts.map fun p => rho p.place) (cfg'.pts.map fun p => P p.place)) := by
  have f1 : ∀ (pts : List Pt) (P : Pt → Bool) (rho : Pt → ℝ),
      Shapes.select pts (pts.map rho) (pts.map P) = (pts.filter P).map fun p => (p, rho p) := by
    intro pts P rho
    apply select_spec
    · rw [List.forall₂_map_right_iff]; exact List.forall₂_same.2 fun _ _ => rfl
    · rw [List.forall₂_map_right_iff]; exact List.forall₂_same.2 fun _ _ => rfl
  exact ⟨P, rho, f1 _ _ _, f1 _ _ _⟩

/-- States of the iterations for two samplings of the same mass distribution. -/
structure StPlace (cfg cfg' : Config) (st st' : PState) : Prop where
  q : st'.q = st.q
  s : st'.s = st.s
  err : st'.err = st.err
  iteration : st'.iteration = st.iteration
  morph : st'.morph = st.morph
  sel : SelPlace cfg cfg' st.sel st'.sel

/-- Position in the principal frame, as a function of the place. -/
noncomputable def princAt (cfg : Config) (major inter minor : Vec ℝ) (k : Place) : Vec ℝ := toPrinc cfg major inter minor ⟨k.1, k.2, 0⟩

theorem SameMasses.iterate (st st' : PState) (hst : StPlace cfg cfg' st st') :
    (pureIterate cfg st = none ∧ pureIterate cfg' st' = none) ∨
    ∃ s1 s1', pureIterate cfg st = some s1 ∧ pureIterate cfg' st' = some s1' ∧ StPlace cfg cfg' s1 s1' := by
  have hdiag : diagonalise cfg' = diagonalise cfg := by
    funext t q s
    unfold Shapes.diagonalise
    rw [h.solver]
  have hlater : laterTest cfg' = laterTest cfg := by
    funext q s y
    unfold Shapes.laterTest
    rw [h.d, h.deltaD]
  unfold pureIterate
  rw [h.tensor hst.sel, hdiag, hst.q, hst.s]
  cases pureTensor cfg st.sel with
  | none => left; exact ⟨rfl, rfl⟩
  | some t =>
    simp only [Option.bind_eq_bind, Option.bind_some]
    cases Shapes.diagonalise cfg t st.q st.s with
    | none => left; exact ⟨rfl, rfl⟩
    | some r =>
      obtain ⟨qn, sn, err, major, inter, minor⟩ := r
      simp only [Option.bind_some]
      have hp : toPrinc cfg major inter minor = fun p => princAt cfg major inter minor p.place := rfl
      have hp' : toPrinc cfg' major inter minor = fun p => princAt cfg major inter minor p.place := by
        funext p
        unfold princAt toPrinc Pt.place
        rw [h.center]
      rw [List.mapM_map, List.mapM_map, List.mapM_map, List.mapM_map, hlater, hp, hp']
      rw [mapM_closed _ (0 : ℝ) cfg.pts, mapM_closed _ (0 : ℝ) cfg'.pts,
        mapM_closed _ false cfg.pts, mapM_closed _ false cfg'.pts]
      simp only [Function.comp_def]
      have a1 := h.all fun k => ((ellRadius2 qn sn (princAt cfg major inter minor k)).map Real.sqrt).isSome
      have a2 := h.all fun k => (Shapes.laterTest cfg qn sn (princAt cfg major inter minor k)).isSome
      by_cases b1 : ∀ p ∈ cfg.pts, ((ellRadius2 qn sn (princAt cfg major inter minor p.place)).map Real.sqrt).isSome
      · rw [if_pos b1, if_pos (a1.2 b1)]
        by_cases b2 : ∀ p ∈ cfg.pts, (Shapes.laterTest cfg qn sn (princAt cfg major inter minor p.place)).isSome
        · rw [if_pos b2, if_pos (a2.2 b2)]
          right
          refine ⟨_, _, rfl, rfl, rfl, rfl, rfl, by simp only [hst.iteration], by simp only [h.d], ?_⟩
          exact h.select (fun k => (Shapes.laterTest cfg qn sn (princAt cfg major inter minor k)).getD false)
            fun k => ((ellRadius2 qn sn (princAt cfg major inter minor k)).map Real.sqrt).getD 0
        · rw [if_neg b2, if_neg (fun x => b2 (a2.1 x))]
          left; exact ⟨rfl, rfl⟩
      · rw [if_neg b1, if_neg (fun x => b1 (a1.1 x))]
        left; exact ⟨rfl, rfl⟩

theorem SameMasses.step (st st' : PState) (hst : StPlace cfg cfg' st st') :
    (∃ r, pureStep cfg st = .stop r ∧ pureStep cfg' st' = .stop r) ∨
    ∃ s1 s1', pureStep cfg st = .go s1 ∧ pureStep cfg' st' = .go s1' ∧ StPlace cfg cfg' s1 s1' := by
  unfold pureStep
  rw [hst.err, h.tol]
  by_cases he : st.err > cfg.tol
  · rw [if_pos he, if_pos he, hst.iteration, h.wall]
    by_cases hw : (st.iteration : Int) > cfg.wall
    · rw [if_pos hw, if_pos hw]; exact Or.inl ⟨_, rfl, rfl⟩
    · have hl : ((st'.sel.length : Int) < cfg'.itMin) ↔ (st.sel.length : Int) < cfg.itMin := by
        obtain ⟨P, rho, e, e'⟩ := hst.sel
        rw [e, e', List.length_map, List.length_map]
        exact h.count P
      rw [if_neg hw, if_neg hw]
      by_cases hm : (st.sel.length : Int) < cfg.itMin
      · rw [if_pos hm, if_pos (hl.2 hm)]; exact Or.inl ⟨_, rfl, rfl⟩
      · rw [if_neg hm, if_neg (fun x => hm (hl.1 x))]
        rcases h.iterate st st' hst with ⟨e1, e2⟩ | ⟨s1, s1', e1, e2, hr⟩
        · rw [e1, e2]; exact Or.inl ⟨_, rfl, rfl⟩
        · rw [e1, e2]; exact Or.inr ⟨_, _, rfl, rfl, hr⟩
  · rw [if_neg he, if_neg he, hst.morph]; exact Or.inl ⟨_, rfl, rfl⟩

theorem SameMasses.loop (fuel : Nat) (st st' : PState) (hst : StPlace cfg cfg' st st') :
    loop (pureStep cfg') fuel st' = loop (pureStep cfg) fuel st := by
  induction fuel generalizing st st' with
  | zero => rfl
  | succ fuel ih =>
    unfold Shapes.loop
    rcases h.step st st' hst with ⟨r, e1, e2⟩ | ⟨s1, s1', e1, e2, hr⟩
    · rw [e1, e2]
    · rw [e1, e2]; exact ih s1 s1' hr

theorem SameMasses.run (fuel : Nat) (morph : Morph) : pureRun fuel cfg' morph = pureRun fuel cfg morph := by
  apply h.loop
  refine ⟨rfl, rfl, rfl, rfl, rfl, ?_⟩
  have := h.select (fun k => initialTest cfg ⟨k.1, k.2, 0⟩) fun k => radius0 cfg ⟨k.1, k.2, 0⟩
  have e1 : initialTest cfg' = fun p => initialTest cfg ⟨p.place.1, p.place.2, 0⟩ := by
    funext p
    unfold initialTest Pt.place
    rw [h.center, h.d, h.deltaD]
  have e2 : radius0 cfg' = fun p => radius0 cfg ⟨p.place.1, p.place.2, 0⟩ := by
    funext p
    unfold radius0 Pt.place
    rw [h.center]
  unfold pureStart
  simp only
  rw [e1, e2]
  exact this

end

/-! ## Spread -/

/-- The spread vanishes if and only if all particles are at the same place. -/
theorem localSpread_zero_iff (pts : List Pt) : localSpread pts = 0 ↔ ∀ p ∈ pts, ∀ q ∈ pts, p.x = q.x := by
  cases pts with
  | nil => simp [localSpread]
  | cons p₀ rest =>
    have hne : p₀ :: rest ≠ [] := by simp
    have h₀ : p₀ ∈ p₀ :: rest := by simp
    generalize p₀ :: rest = pts at *
    have hn : (0 : ℝ) < pts.length := by exact_mod_cast List.length_pos_iff.2 hne
    unfold localSpread
    simp only [Periodic.foldl_add_eq, zero_add]
    set μ : Vec ℝ := fun i => (pts.map fun p => p.x i / (pts.length : ℝ)).sum with hμ
    have hμi : ∀ i, (pts.map fun p => p.x i / (pts.length : ℝ)).sum = μ i := fun i => rfl
    simp only [hμi]
    constructor
    · intro hz
      have hz' : ∀ p ∈ pts, p.x = μ := by
        intro p hp
        have hle := List.single_le_sum (l := pts.map fun p : Pt =>
          Real.sqrt ((p.x 0 - μ 0) ^ 2 + (p.x 1 - μ 1) ^ 2 + (p.x 2 - μ 2) ^ 2) / (pts.length : ℝ)) (by
            intro x hx
            obtain ⟨q, _, rfl⟩ := List.mem_map.1 hx
            positivity) _ (List.mem_map_of_mem hp)
        rw [hz] at hle
        have hall : Real.sqrt ((p.x 0 - μ 0) ^ 2 + (p.x 1 - μ 1) ^ 2 + (p.x 2 - μ 2) ^ 2) / (pts.length : ℝ) = 0 :=
          le_antisymm hle (by positivity)
        have h1 := (div_eq_zero_iff.1 hall).resolve_right hn.ne'
        rw [Real.sqrt_eq_zero (by positivity)] at h1
        funext i
        have s0 := sq_nonneg (p.x 0 - μ 0)
        have s1 := sq_nonneg (p.x 1 - μ 1)
        have s2 := sq_nonneg (p.x 2 - μ 2)
        have : (p.x i - μ i) ^ 2 = 0 := by
          fin_cases i <;> simp only [Fin.zero_eta, Fin.mk_one, Fin.reduceFinMk] <;> linarith
        have := pow_eq_zero_iff (two_ne_zero) |>.1 this
        linarith
      intro p hp q hq
      rw [hz' p hp, hz' q hq]
    · intro hall
      have hm : μ = p₀.x := by
        funext i
        rw [hμ]
        have : (pts.map fun p => p.x i / (pts.length : ℝ)) = pts.map fun _ => p₀.x i / (pts.length : ℝ) := by
          apply List.map_congr_left
          intro p hp
          rw [hall p hp p₀ h₀]
        simp only [this]
        simp
        field_simp
      apply List.sum_eq_zero
      intro x hx
      obtain ⟨p, hp, rfl⟩ := List.mem_map.1 hx
      rw [hm, hall p hp p₀ h₀]
      simp

end Verif.Shapes
