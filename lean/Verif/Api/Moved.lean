import Verif.Api.ShapesProps
import Verif.Api.KernelProps
import Verif.Api.Centres

/-!
# Moving the simulation in its periodic box (C134)
-/

set_option linter.unusedSectionVars false

namespace Verif.Api

open Verif.Units Verif.Catalogue Verif.Periodic Verif.Binning Verif.Par
open Verif.Shapes (Solver Settings ObjData Pt Part Morph Kind aloneShapes positionPts pureOne pureLoop pureLocal
  pureGlobal pureRun move localSpread GoodSolver)

/-! ## Specification -/

/-- The particles after moving everything by `t` in the periodic box: every particle is somewhere at an image of the moved
position. -/
def Displaced (L : ℝ) (t : Vec ℝ) (xyz xyz' : List (Vec ℝ)) : Prop :=
  List.Forall₂ (fun x y : Vec ℝ => ∀ a, ∃ n : ℤ, y a = x a + t a + n * L) xyz xyz'

/-- The object lies in less than half the box along every axis, without crossing a face. -/
def InOnePiece (L : ℝ) (ps : List (Particle ℝ)) : Prop :=
  ∀ p ∈ ps, ∀ q ∈ ps, ∀ a, |p.pos a - q.pos a| < L / 2

/-! ## Particles of an object -/

theorem InOnePiece.notCrossing {L : ℝ} {ps : List (Particle ℝ)} (h : InOnePiece L ps) : NotCrossing L ps :=
  fun p hp q hq a => (h p hp q hq a).le

theorem particlesOf_displaced (L : ℝ) (hL : 0 < L) (t : Vec ℝ) (xyz xyz' : List (Vec ℝ)) (masses : List ℝ)
    (hd : Displaced L t xyz xyz') (idx : List Nat)
    (h : InOnePiece L (particlesOf xyz masses idx)) (h' : InOnePiece L (particlesOf xyz' masses idx)) :
    ∃ k : Fin 3 → ℤ, particlesOf xyz' masses idx =
      translate (fun a => t a + k a * L) (particlesOf xyz masses idx) := by
  have hget : ∀ (i : Nat) (x : Vec ℝ), xyz[i]? = some x → ∃ y, xyz'[i]? = some y ∧
      ∀ a, ∃ n : ℤ, y a = x a + t a + n * L := by
    intro i x hx
    obtain ⟨hi, rfl⟩ := List.getElem?_eq_some_iff.1 hx
    have hi' : i < xyz'.length := by rw [← hd.length_eq]; exact hi
    exact ⟨xyz'[i], List.getElem?_eq_getElem hi', (List.forall₂_iff_get.1 hd).2 i hi hi'⟩
  have hnone : ∀ i : Nat, xyz[i]? = none → xyz'[i]? = none := by
    intro i hx
    rw [List.getElem?_eq_none_iff] at hx ⊢
    rw [← hd.length_eq]; exact hx
  by_cases hne : ∃ i ∈ idx, ∃ x m, xyz[i]? = some x ∧ masses[i]? = some m
  · obtain ⟨i₀, hi₀, x₀, m₀, hx₀, hm₀⟩ := hne
    obtain ⟨y₀, hy₀, hn₀⟩ := hget i₀ x₀ hx₀
    choose k hk using hn₀
    refine ⟨k, ?_⟩
    have hp₀ : (⟨x₀, m₀⟩ : Particle ℝ) ∈ particlesOf xyz masses idx :=
      List.mem_filterMap.2 ⟨i₀, hi₀, by rw [hx₀, hm₀]; rfl⟩
    have hp₀' : (⟨y₀, m₀⟩ : Particle ℝ) ∈ particlesOf xyz' masses idx :=
      List.mem_filterMap.2 ⟨i₀, hi₀, by rw [hy₀, hm₀]; rfl⟩
    unfold translate particlesOf
    rw [List.map_filterMap]
    apply List.filterMap_congr
    intro i hi
    cases hx : xyz[i]? with
    | none => rw [hnone i hx]; rfl
    | some x =>
      obtain ⟨y, hy, hn⟩ := hget i x hx
      rw [hy]
      cases hm : masses[i]? with
      | none => rfl
      | some m =>
        have hp : (⟨x, m⟩ : Particle ℝ) ∈ particlesOf xyz masses idx :=
          List.mem_filterMap.2 ⟨i, hi, by rw [hx, hm]; rfl⟩
        have hp' : (⟨y, m⟩ : Particle ℝ) ∈ particlesOf xyz' masses idx :=
          List.mem_filterMap.2 ⟨i, hi, by rw [hy, hm]; rfl⟩
        simp only [Option.bind_some, Option.map_some, Option.some.injEq, Particle.mk.injEq, and_true]
        funext a
        obtain ⟨n, hna⟩ := hn a
        have h1 := abs_lt.1 (h _ hp _ hp₀ a)
        have h2 := abs_lt.1 (h' _ hp' _ hp₀' a)
        simp only at h1 h2
        rw [hna, hk a] at h2
        have h3 : ((n - k a : ℤ) : ℝ) * L < 1 * L := by push_cast; linarith [h1.1, h2.2]
        have h4 : (-1 : ℝ) * L < ((n - k a : ℤ) : ℝ) * L := by push_cast; linarith [h1.2, h2.1]
        have h5 : n - k a < 1 := by exact_mod_cast lt_of_mul_lt_mul_right h3 hL.le
        have h6 : -1 < n - k a := by exact_mod_cast lt_of_mul_lt_mul_right h4 hL.le
        have h7 : n = k a := by omega
        rw [hna, h7]
        simp only [Pi.add_apply]
        ring
  · refine ⟨0, ?_⟩
    have e : ∀ xyz : List (Vec ℝ), (∀ i ∈ idx, ∀ x m, xyz[i]? = some x → masses[i]? = some m → False) →
        particlesOf xyz masses idx = [] := by
      intro xyz hno
      rw [List.eq_nil_iff_forall_not_mem]
      intro p hp
      obtain ⟨i, hi, hx⟩ := List.mem_filterMap.1 hp
      obtain ⟨x, hx, hm⟩ := Option.bind_eq_some_iff.1 hx
      obtain ⟨m, hm, -⟩ := Option.map_eq_some_iff.1 hm
      exact hno i hi x m hx hm
    rw [e xyz fun i hi x m hx hm => hne ⟨i, hi, x, m, hx, hm⟩, e xyz' ?_]
    · rfl
    · intro i hi y m hy hm
      cases hx : xyz[i]? with
      | none => rw [hnone i hx] at hy; cases hy
      | some x => exact hne ⟨i, hi, x, m, hx, hm⟩

theorem translate_scale (f g : ℝ) (t : Vec ℝ) (ps : List (Particle ℝ)) :
    (translate t ps).map (scale f g) = translate (fun a => t a * f) (ps.map (scale f g)) := by
  unfold translate
  rw [List.map_map, List.map_map]
  apply List.map_congr_left
  intro p _
  simp only [Function.comp, scale, Particle.mk.injEq, and_true]
  funext a
  simp only [Pi.add_apply]
  ring

/-! ## Centres -/

theorem notCrossing_translate {L : ℝ} (t : Vec ℝ) {ps : List (Particle ℝ)} (h : NotCrossing L ps) :
    NotCrossing L (translate t ps) := by
  intro p hp q hq a
  obtain ⟨p, hp', rfl⟩ := List.mem_map.1 hp
  obtain ⟨q, hq', rfl⟩ := List.mem_map.1 hq
  simpa using h p hp' q hq' a

theorem weightedMean_translate (t : Vec ℝ) (ps : List (Particle ℝ)) (hM : totalMass ps ≠ 0) :
    weightedMean (translate t ps) = weightedMean ps + t := by
  have h := (C25_centre_of_mass [] ps hM).2.1 [] t
  have hM' : totalMass (translate t ps) = totalMass ps := by
    simp [totalMass, translate, Function.comp_def]
  rwa [calcCoM_eq [] ps hM, calcCoM_eq [] _ (by rw [hM']; exact hM)] at h

theorem dist_translate (t x y : Vec ℝ) : Periodic.dist (x + t) (y + t) = Periodic.dist x y := by
  unfold Periodic.dist
  simp

theorem calcMode_translate (t : Vec ℝ) (fuel : Nat) (ps : List (Particle ℝ)) (rad : ℝ) (hne : ps ≠ [])
    (hm : ∀ p ∈ ps, 0 < p.mass) :
    calcMode fuel (translate t ps) rad = (calcMode fuel ps rad).map (· + t) := by
  induction fuel generalizing ps rad with
  | zero => rfl
  | succ n ih =>
    rw [calcMode_succ, calcMode_succ, weightedMean_translate t ps (totalMass_pos ps hne hm).ne']
    have hf : (translate t ps).filter (fun p => decide (Periodic.dist p.pos (weightedMean ps + t) < rad)) =
        translate t (ps.filter fun p => decide (Periodic.dist p.pos (weightedMean ps) < rad)) := by
      unfold translate
      rw [List.filter_map]
      congr 1
      apply List.filter_congr
      intro p _
      simp only [Function.comp, dist_translate]
    rw [hf]
    have hl : ∀ l : List (Particle ℝ), (translate t l).length = l.length := fun l => by simp [translate]
    rw [hl]
    split
    · rfl
    · next h5 =>
      apply ih
      · intro h0
        rw [h0] at h5
        simp at h5
      · intro p hp
        exact hm p (List.mem_of_mem_filter hp)

theorem max?_add (s : ℝ) (l : List ℝ) : (l.map (· + s)).max? = l.max?.map (· + s) := by
  cases l with
  | nil => rfl
  | cons a l =>
    simp only [List.map_cons, List.max?_cons', Option.map_some, Option.some.injEq]
    induction l generalizing a with
    | nil => rfl
    | cons b l ih =>
      simp only [List.map_cons, List.foldl_cons]
      rw [max_add_add_right, ih]

theorem min?_add (s : ℝ) (l : List ℝ) : (l.map (· + s)).min? = l.min?.map (· + s) := by
  cases l with
  | nil => rfl
  | cons a l =>
    simp only [List.map_cons, List.min?_cons', Option.map_some, Option.some.injEq]
    induction l generalizing a with
    | nil => rfl
    | cons b l ih =>
      simp only [List.map_cons, List.foldl_cons]
      rw [min_add_add_right, ih]

theorem axisExtent_translate (t : Vec ℝ) (ps : List (Particle ℝ)) (a : Fin 3) :
    axisExtent (translate t ps) a = axisExtent ps a := by
  cases ps with
  | nil => rfl
  | cons p ps =>
    have h : ((translate t (p :: ps)).map fun p => p.pos a) = ((p :: ps).map fun p => p.pos a).map (· + t a) := by
      simp [translate]
    unfold axisExtent
    rw [h, max?_add, min?_add]
    simp [List.max?_cons', List.min?_cons']

section
variable (choose : Nat → List Nat) (hch : ∀ n, 0 < n → ∃ j ∈ choose n, j < n) (limit : Nat) (L : ℝ) (hL : 0 < L)
  (center : Center) (t : Vec ℝ) (ps : List (Particle ℝ)) (hne : ps ≠ []) (hm : ∀ p ∈ ps, 0 < p.mass)
  (h : NotCrossing L ps)
include hch hL hne hm h

theorem unwrapped_translate : unwrapped choose L (translate t ps) = translate t ps ∧ unwrapped choose L ps = ps :=
  ⟨unwrapped_of_notCrossing choose L hL _ (hch _ (by simpa [translate, List.length_pos_iff] using hne))
    (notCrossing_translate t h),
   unwrapped_of_notCrossing choose L hL _ (hch _ (List.length_pos_iff.2 hne)) h⟩

theorem centreOf_translate :
    centreOf choose limit L center (translate t ps) = (centreOf choose limit L center ps).map (· + t) := by
  obtain ⟨h1, h2⟩ := unwrapped_translate choose hch L hL t ps hne hm h
  have hM := (totalMass_pos ps hne hm).ne'
  unfold centreOf
  unfold unwrapped at h1 h2
  dsimp only
  rw [h1, h2]
  cases center with
  | com => exact congrArg some ((C25_centre_of_mass _ ps hM).2.1 _ t)
  | mode => exact calcMode_translate t limit ps 1000 hne hm

theorem shapeCentre_translate :
    shapeCentre choose limit L center (translate t ps) = (shapeCentre choose limit L center ps).map (· + t) := by
  obtain ⟨h1, h2⟩ := unwrapped_translate choose hch L hL t ps hne hm h
  have hM := (totalMass_pos ps hne hm).ne'
  unfold shapeCentre
  unfold unwrapped at h1 h2
  dsimp only
  rw [h1, h2]
  cases center with
  | com => exact congrArg some ((C25_centre_of_mass _ ps hM).2.1 _ t)
  | mode =>
    simp only [axisExtent_translate]
    exact calcMode_translate t limit ps _ hne hm

end

/-! ## Results of one object -/

theorem dist2_translate (t c x : Vec ℝ) : dist2 (c + t) (x + t) = dist2 c x := by
  unfold dist2
  simp

theorem aloneProfile_translate (L : ℝ) (hL : 0 < L) (edges : List ℝ) (t : Vec ℝ) (ps : List (Particle ℝ))
    (h : NotCrossing L ps) (v : Vec ℝ) (r : ℝ) :
    aloneProfile L edges ⟨translate t ps, v + t, r⟩ = aloneProfile L edges ⟨ps, v, r⟩ := by
  unfold aloneProfile
  simp only
  rw [cy_of_notCrossing L hL _ (notCrossing_translate t h), cy_of_notCrossing L hL _ h,
    densProfSph_eq _ _ _ _ _ (by simp), densProfSph_eq _ _ _ _ _ (by simp)]
  apply List.map_congr_left
  intro e _
  unfold translate
  rw [List.filter_map, List.map_map]
  have : (qSph (v + t) r e.1 e.2 ∘ fun p : Particle ℝ => (⟨p.pos + t, p.mass⟩ : Particle ℝ)) =
      qSph v r e.1 e.2 := by
    funext p
    simp only [Function.comp, qSph, dist2_translate]
  rw [this]
  rfl

theorem massDistances_translate (L : ℝ) (hL : 0 < L) (t : Vec ℝ) (ps : List (Particle ℝ)) (h : NotCrossing L ps)
    (v : Vec ℝ) : massDistances L (v + t) (translate t ps) = massDistances L v ps := by
  unfold massDistances
  rw [cy_of_notCrossing L hL _ (notCrossing_translate t h), cy_of_notCrossing L hL _ h]
  unfold translate
  rw [List.map_map]
  apply List.map_congr_left
  intro p _
  simp [radius]

theorem localSpread_translate (t : Vec ℝ) (pts : List Pt) :
    localSpread (pts.map fun p => { p with x := p.x + t, src := p.src + t }) = localSpread pts := by
  cases pts with
  | nil => rfl
  | cons p₀ pts₀ =>
    have hne : p₀ :: pts₀ ≠ [] := by simp
    generalize p₀ :: pts₀ = pts at hne
    have hn : (pts.length : ℝ) ≠ 0 := by
      have : 0 < pts.length := List.length_pos_iff.2 hne
      exact_mod_cast this.ne'
    have hmean : ∀ i, (pts.map fun p => ({ p with x := p.x + t, src := p.src + t } : Pt)).foldl
        (fun acc p => acc + p.x i / (pts.length : ℝ)) 0 =
        pts.foldl (fun acc p => acc + p.x i / (pts.length : ℝ)) 0 + t i := by
      intro i
      rw [foldl_add_eq, foldl_add_eq, List.map_map]
      simp only [Function.comp_def, Pi.add_apply, add_div, zero_add]
      rw [sum_map_add']
      congr 1
      simp
      field_simp
    unfold localSpread
    simp only [List.length_map]
    simp only [hmean, List.foldl_map, Pi.add_apply, add_sub_add_right_eq_sub]

theorem aloneShapes_translate (st : Settings) (hL : 0 < st.box) (whole : Bool) (t : Vec ℝ)
    (ps : List (Particle ℝ)) (h : NotCrossing st.box ps) (v : Vec ℝ) (r : ℝ) :
    aloneShapes st (kindOf whole) ⟨(translate t ps).map fun p => ⟨p.pos, 0, p.mass⟩, v + t, r⟩ =
      aloneShapes st (kindOf whole) ⟨ps.map fun p => ⟨p.pos, 0, p.mass⟩, v, r⟩ := by
  have e1 : ((translate t ps).map fun p => (⟨p.pos, p.pos, p.mass⟩ : Pt)) =
      (ps.map fun p => (⟨p.pos, p.pos, p.mass⟩ : Pt)).map
        fun p => { p with x := p.x + t, src := p.src + t } := by
    simp [translate]
  have hone : ∀ (d : ℝ) (δ : Option ℝ) (m : Morph) (pts : List Pt),
      pureOne (st.config (pts.map fun p => { p with x := p.x + t, src := p.src + t }) (v + t) (v + t) d δ) m =
      pureOne (st.config pts v v d δ) m := by
    intro d δ m pts
    have := pureRun_move ((st.config pts v v d δ).wall.toNat + 1) (st.config pts v v d δ) t t m
    unfold pureOne
    rw [← this]
    rfl
  have hP := positionPts_of_notCrossing st hL (translate t ps) (v + t) r (notCrossing_translate t h)
  have hP' := positionPts_of_notCrossing st hL ps v r h
  unfold kindOf
  cases whole with
  | true =>
    simp only [if_true]
    unfold aloneShapes
    simp only
    rw [hP, hP', e1]
    unfold pureGlobal pureLoop
    simp only [localSpread_translate, hone]
  | false =>
    simp only [Bool.false_eq_true, if_false]
    unfold aloneShapes
    simp only
    rw [hP, hP', e1]
    unfold pureLocal pureLoop
    simp only [localSpread_translate, hone]

/-! ## The calls as functions -/

theorem mapM_eq_of_map {α α' β : Type} (F : α → Option β) (F' : α' → Option β) (l : List α) (l' : List α')
    (h : l.map F = l'.map F') : l.mapM F = l'.mapM F' := by
  induction l generalizing l' with
  | nil =>
    cases l' with
    | nil => rfl
    | cons a l' => simp at h
  | cons a l ih =>
    cases l' with
    | nil => simp at h
    | cons a' l' =>
      simp only [List.map_cons, List.cons.injEq] at h
      rw [List.mapM_cons, List.mapM_cons, h.1, ih l' h.2]

theorem mapM_pack {α β γ : Type} (C : α → Option β) (G : α → β → ℝ → γ) (parts : List α) (r200 : List ℝ)
    (hlen : r200.length = parts.length) :
    (parts.zip r200).mapM (fun pr => (C pr.1).map fun v => G pr.1 v pr.2) =
      (parts.mapM C).map fun centers => List.zipWith (fun pc r => G pc.1 pc.2 r) (parts.zip centers) r200 := by
  induction parts generalizing r200 with
  | nil => rfl
  | cons p parts ih =>
    cases r200 with
    | nil => simp at hlen
    | cons r r200 =>
      rw [List.zip_cons_cons, List.mapM_cons, List.mapM_cons, ih r200 (by simpa using hlen)]
      cases C p with
      | none => rfl
      | some v =>
        cases parts.mapM C with
        | none => rfl
        | some cs => rfl

/-- What `getShapeCatLocal`/`Global` return for given particles and radii. -/
noncomputable def shapesOf (c : Cfg ℝ) (sol : Solver) (choose : Nat → List Nat) (limit : Nat) (L : ℝ) (center : Center)
    (katz : Katz) (whole : Bool) (objs : List (List (Particle ℝ) × ℝ)) : Except ShapeErr (List (List ShapeEntry)) :=
  match objs.mapM (fun pr => (shapeCentre choose limit L center pr.1).map fun v =>
      aloneShapes (katz.settings sol L) (kindOf whole) ⟨pr.1.map fun p => ⟨p.pos, 0, p.mass⟩, v, pr.2⟩) with
  | none => .error (.api .recursion)
  | some xs => match xs.mapM id with
    | none => .error .zeroDivision
    | some rows => .ok (rows.map fun row => row.map (entryOf (mpch c.h / c.outL)))

theorem getShapeCat_fn (c : Cfg ℝ) (sol : Solver) (choose : Nat → List Nat) (limit : Nat) (o : Obj) (katz : Katz)
    (whole : Bool) (sel : List Int) (parts : List (List (Particle ℝ))) (hsel : selectParticles o sel = .ok parts)
    (r200 : List ℝ) (hr200 : fancy o.r200 (sel.map Int.toNat) = some r200) (hlen : r200.length = parts.length)
    (out : Except ShapeErr (List (List ShapeEntry))) (hrun : GetShapeCat c sol choose limit o katz whole sel out) :
    out = shapesOf c sol choose limit o.box o.center katz whole (parts.zip r200) := by
  unfold shapesOf
  rw [mapM_pack (shapeCentre choose limit o.box o.center) (fun ps v r => aloneShapes (katz.settings sol o.box)
    (kindOf whole) ⟨ps.map fun p => ⟨p.pos, 0, p.mass⟩, v, r⟩) parts r200 hlen]
  cases hrun with
  | rejected e h => rw [hsel] at h; cases h
  | diverges parts' h hc =>
    rw [hsel] at h
    obtain rfl := Except.ok.inj h
    rw [hc]
    rfl
  | looped parts' h centers hc r200' hr data hd largest hl ws ex l m hu _ hout =>
    rw [hsel] at h
    obtain rfl := Except.ok.inj h
    rw [hr200] at hr
    obtain rfl := Option.some.inj hr
    rw [internalLM_eq] at hu
    obtain ⟨rfl, rfl⟩ := Prod.mk.inj (Except.ok.inj hu)
    rw [hc]
    simp only [Option.map_some]
    have hdlen : data.length = parts.length := by
      have h1 := (mapM_some_get _ _ _ hc).1
      rw [hd]
      simp [h1, hlen]
    have hdata : ∀ d ∈ data, d.particles.length ≤ largest := by
      intro d hdm
      rw [hd] at hdm
      obtain ⟨i, hi⟩ := List.mem_iff_getElem?.1 hdm
      rw [List.getElem?_zipWith_eq_some] at hi
      obtain ⟨pc, r, h1, -, rfl⟩ := hi
      simpa using hl _ (List.mem_of_getElem? (List.getElem?_zip_eq_some.1 h1).1)
    have hrows : loopRows (katz.settings sol o.box) (kindOf whole) largest parts.length ws =
        (data.map (aloneShapes (katz.settings sol o.box) (kindOf whole))).mapM id := by
      unfold loopRows
      apply mapM_eq_of_map
      apply List.ext_getElem?
      intro k
      rw [List.getElem?_map, List.getElem?_map, List.getElem?_map]
      by_cases hk : k < parts.length
      · rw [List.getElem?_range hk, List.getElem?_eq_getElem (by omega : k < data.length)]
        simp only [Option.map_some, id]
        rw [Shapes.C41_schedule_independent (katz.settings sol o.box) (kindOf whole) data largest hdata _
          (fun _ => freshScratch_inv (katz.settings sol o.box) whole largest) none ws ex k data[k]
          (List.getElem?_eq_getElem (by omega))]
      · rw [List.getElem?_eq_none (by simpa using hk), List.getElem?_eq_none (by omega : data.length ≤ k)]
        rfl
    rw [hout, hrows, hd, List.map_zipWith]
    rfl

/-- What `estDensProfs` (spherical shells) returns. -/
noncomputable def profilesOf (c : Cfg ℝ) (choose : Nat → List Nat) (limit : Nat) (L : ℝ) (center : Center) (edges : List ℝ)
    (objs : List (List (Particle ℝ) × ℝ)) : Except Err (List (List ℝ)) :=
  match objs.mapM (fun pr => (centreOf choose limit L center pr.1).map fun v =>
      (estOut c (aloneProfile L edges ⟨pr.1, v, pr.2⟩)).toOption) with
  | none => .error .recursion
  | some xs => .ok ((xs.mapM id).getD [])

theorem estDensProfs_fn (c : Cfg ℝ) (choose : Nat → List Nat) (limit : Nat) (o : Obj) (radii edges : List ℝ)
    (hedges : sphEdges radii = some edges) (sel : List Int) (parts : List (List (Particle ℝ)))
    (hsel : selectParticles o sel = .ok parts)
    (r200 : List ℝ) (hr200 : fancy o.r200 (sel.map Int.toNat) = some r200) (hlen : r200.length = parts.length)
    (out : Except Err (List (List ℝ))) (hrun : EstDensProfs c choose limit o radii sel out) :
    out = profilesOf c choose limit o.box o.center edges (parts.zip r200) := by
  unfold profilesOf
  rw [mapM_pack (centreOf choose limit o.box o.center) (fun ps v r => (estOut c (aloneProfile o.box edges
    ⟨ps, v, r⟩)).toOption) parts r200 hlen]
  cases hrun with
  | rejected e h => rw [hsel] at h; cases h
  | noRadii parts' h he => rw [hedges] at he; cases he
  | diverges parts' h hc =>
    rw [hsel] at h
    obtain rfl := Except.ok.inj h
    rw [hc]
    rfl
  | finished parts' h edges' he centers hc r200' hr data hd largest hl ws ex out hout =>
    rw [hsel] at h
    obtain rfl := Except.ok.inj h
    rw [hr200] at hr
    obtain rfl := Option.some.inj hr
    rw [hedges] at he
    obtain rfl := Option.some.inj he
    rw [hc]
    simp only [Option.map_some]
    have hdlen : data.length = parts.length := by
      have h1 := (mapM_some_get _ _ _ hc).1
      rw [hd]
      simp [h1, hlen]
    have hdata : ∀ d ∈ data, d.particles.length ≤ largest := by
      intro d hdm
      rw [hd] at hdm
      obtain ⟨i, hi⟩ := List.mem_iff_getElem?.1 hdm
      rw [List.getElem?_zipWith_eq_some] at hi
      obtain ⟨pc, r, h1, -, rfl⟩ := hi
      exact hl _ (List.mem_of_getElem? (List.getElem?_zip_eq_some.1 h1).1)
    have hrows : (List.zipWith (fun (pc : List (Particle ℝ) × Vec ℝ) r => (estOut c (aloneProfile o.box edges
        ⟨pc.1, pc.2, r⟩)).toOption) (parts.zip centers) r200).mapM id = some out := by
      rw [← hout]
      symm
      apply mapM_eq_of_map
      apply List.ext_getElem?
      intro k
      have e : List.zipWith (fun (pc : List (Particle ℝ) × Vec ℝ) r => (estOut c (aloneProfile o.box edges
          ⟨pc.1, pc.2, r⟩)).toOption) (parts.zip centers) r200 =
          data.map fun d => (estOut c (aloneProfile o.box edges d)).toOption := by
        rw [hd, List.map_zipWith]
      rw [e, List.getElem?_map, List.getElem?_map, List.getElem?_map]
      by_cases hk : k < parts.length
      · rw [List.getElem?_range hk, List.getElem?_eq_getElem (by omega : k < data.length)]
        simp only [Option.map_some, id]
        rw [C78_no_crosstalk o.box edges data largest hdata
          (fun _ : Nat => ⟨List.replicate largest 0, List.replicate largest 0, List.replicate largest 0⟩)
          (by intro t; simp) (fun _ => []) ws ex k data[k] (List.getElem?_eq_getElem (by omega))]
      · rw [List.getElem?_eq_none (by simpa using hk), List.getElem?_eq_none (by omega : data.length ≤ k)]
        rfl
    rw [hrows]
    rfl

/-- What `getMassesCenters` returns. -/
noncomputable def massesOf (c : Cfg ℝ) (choose : Nat → List Nat) (limit : Nat) (L : ℝ) (center : Center)
    (parts : List (List (Particle ℝ))) : Except Err (List (Vec ℝ × ℝ)) :=
  match parts.mapM (fun ps => (centreOf choose limit L center ps).map fun v => (v, totalMass ps)) with
  | none => .error .recursion
  | some xs => .ok (xs.map fun x => (fun a => recentreAxis L (x.1 a) * (mpch c.h / c.outL),
      x.2 * (msunh10 c.h / c.outM)))

theorem mapM_pair {α β γ : Type} (C : α → Option β) (G : α → γ) (parts : List α) :
    parts.mapM (fun p => (C p).map fun v => (v, G p)) =
      (parts.mapM C).map fun centers => centers.zip (parts.map G) := by
  induction parts with
  | nil => rfl
  | cons p parts ih =>
    rw [List.mapM_cons, List.mapM_cons, ih]
    cases C p with
    | none => rfl
    | some v =>
      cases parts.mapM C with
      | none => rfl
      | some cs => rfl

theorem getMassesCenters_fn (c : Cfg ℝ) (choose : Nat → List Nat) (limit : Nat) (o : Obj)
    (sel : List Int) (parts : List (List (Particle ℝ))) (hsel : selectParticles o sel = .ok parts)
    (out : Except Err (List (Vec ℝ × ℝ))) (hrun : GetMassesCenters c choose limit o sel out) :
    out = massesOf c choose limit o.box o.center parts := by
  unfold massesOf
  rw [mapM_pair]
  cases hrun with
  | rejected e h => rw [hsel] at h; cases h
  | diverges parts' h hc =>
    rw [hsel] at h
    obtain rfl := Except.ok.inj h
    rw [hc]
    rfl
  | finished parts' h centers hc ws ex l m hu =>
    rw [hsel] at h
    obtain rfl := Except.ok.inj h
    rw [internalLM_eq] at hu
    obtain ⟨rfl, rfl⟩ := Prod.mk.inj (Except.ok.inj hu)
    rw [hc]
    simp only [Option.map_some]
    congr 1
    have hl := (mapM_some_get _ _ _ hc).1
    apply List.ext_getElem
    · simp [recentreObject, hl]
    · intro k h1 h2
      have hk : k < parts.length := by simpa [recentreObject, hl] using h1
      simp only [recentreObject, List.getElem_zipWith, List.getElem_map, List.getElem_range, List.getElem_zip]
      rw [mass_result parts ws ex k parts[k] (List.getElem?_eq_getElem hk)]

/-- What the loop over objects of `estDensProfs` (kernel-based) returns. -/
noncomputable def kernelOf (choose : Nat → List Nat) (limit : Nat) (L : ℝ) (center : Center) (radii : List ℝ) :
    List (List (Particle ℝ) × ℝ) → Except KernelErr (List (List ℝ))
  | [] => .ok []
  | pr :: rest => match centreOf choose limit L center pr.1 with
    | none => .error (.base .recursion)
    | some v =>
      if radii ≠ [] ∧ ∃ md ∈ massDistances L v pr.1, kernelWidth pr.2 md.2 = 0 then .error .zeroDivision
      else (kernelOf choose limit L center radii rest).map
        ((radii.map fun r => densKernel pr.2 (massDistances L v pr.1) (r * pr.2)) :: ·)

theorem kernelLoop_fn (choose : Nat → List Nat) (limit : Nat) (L : ℝ) (center : Center) (radii : List ℝ)
    (objs : List (List (Particle ℝ) × ℝ)) (out : Except KernelErr (List (List ℝ)))
    (h : KernelLoop choose limit L center radii objs out) : out = kernelOf choose limit L center radii objs := by
  induction h with
  | nil => rfl
  | diverges ps r200 rest h => unfold kernelOf; rw [h]
  | raises ps r200 rest v h ws ex hrow =>
    rw [kernelRow_result r200 radii _ ws ex] at hrow
    unfold kernelOf
    rw [h]
    simp only
    split at hrow
    · next hz => rw [if_pos hz]
    · cases hrow
  | next ps r200 rest v h ws ex row hrow res hrest ih =>
    rw [kernelRow_result r200 radii _ ws ex] at hrow
    unfold kernelOf
    rw [h]
    simp only
    split at hrow
    · cases hrow
    · next hz =>
      rw [if_neg hz, ih, ← Option.some.inj hrow]

theorem estDensProfsKernel_fn (c : Cfg ℝ) (choose : Nat → List Nat) (limit : Nat) (o : Obj) (radii : List ℝ)
    (sel : List Int) (parts : List (List (Particle ℝ))) (hsel : selectParticles o sel = .ok parts)
    (r200 : List ℝ) (hr200 : fancy o.r200 (sel.map Int.toNat) = some r200)
    (out : Except KernelErr (List (List ℝ))) (hrun : EstDensProfsKernel c choose limit o radii sel out) :
    out = (kernelOf choose limit o.box o.center radii (parts.zip r200)).bind fun rows =>
      .ok ((rows.mapM fun row => (estOut c row).toOption).getD []) := by
  cases hrun with
  | rejected e h => rw [hsel] at h; cases h
  | raises ps' h r hr e hl =>
    rw [hsel] at h
    obtain rfl := Except.ok.inj h
    rw [hr200] at hr
    obtain rfl := Option.some.inj hr
    rw [← kernelLoop_fn _ _ _ _ _ _ _ hl]
    rfl
  | finished ps' h r hr rows hl out hout =>
    rw [hsel] at h
    obtain rfl := Except.ok.inj h
    rw [hr200] at hr
    obtain rfl := Option.some.inj hr
    rw [← kernelLoop_fn _ _ _ _ _ _ _ hl]
    simp only [Except.bind]
    rw [hout]
    rfl

/-! ## Both objects -/

/-- Two lists of particles in internal units: the second object is the first one, moved as a whole. -/
structure MovedPart (L : ℝ) (t : Vec ℝ) (ps ps' : List (Particle ℝ)) : Prop where
  nonempty : ps ≠ []
  masses : ∀ p ∈ ps, 0 < p.mass
  piece : NotCrossing L ps
  moved : ∃ k : Fin 3 → ℤ, ps' = translate (fun a => t a + k a * L) ps

section
variable (c : Cfg ℝ) (hc : c.Pos)
    (xyz xyz' : List (Vec ℝ)) (masses : List ℝ) (box : ℝ) (objs : List (List Nat × ℝ)) (minPtcs : Int)
    (hmin : 1 ≤ minPtcs) (center : Center) (hs : Sensible xyz masses box objs) (hs' : Sensible xyz' masses box objs)
    (t : Vec ℝ) (hd : Displaced box t xyz xyz') (o o' : Obj)
    (ho : construct c ⟨xyz, masses, .nested (objs.map Prod.fst), .array (objs.map Prod.snd), box,
      minPtcs, center⟩ = .ok o)
    (ho' : construct c ⟨xyz', masses, .nested (objs.map Prod.fst), .array (objs.map Prod.snd), box,
      minPtcs, center⟩ = .ok o')
    (sel : List Int) (hsel : GoodSelection sel (resolved minPtcs objs).length)
    (hpiece : ∀ z ∈ sel, ∀ obj, (resolved minPtcs objs)[z.toNat]? = some obj →
      InOnePiece box (particlesOf xyz masses obj.1) ∧ InOnePiece box (particlesOf xyz' masses obj.1))
include hc hmin hs hs' hd ho ho' hsel hpiece

theorem both_selected : ∃ parts parts' r200, selectParticles o sel = .ok parts ∧ selectParticles o' sel = .ok parts' ∧
    fancy o.r200 (sel.map Int.toNat) = some r200 ∧ fancy o'.r200 (sel.map Int.toNat) = some r200 ∧
    r200.length = parts.length ∧ r200.length = parts'.length ∧ o'.box = o.box ∧ o'.center = o.center ∧
    o.box = box * (c.inL / mpch c.h) ∧ 0 < o.box ∧
    List.Forall₂ (MovedPart o.box fun a => t a * (c.inL / mpch c.h)) parts parts' := by
  rw [construct_eq c xyz masses box objs minPtcs center hs.lengths hs.objects] at ho
  rw [construct_eq c xyz' masses box objs minPtcs center hs'.lengths hs'.objects] at ho'
  have ho := Except.ok.inj ho
  have ho' := Except.ok.inj ho'
  have hfp : 0 < c.inL / mpch c.h := div_pos hc.inL (mpch_pos hc.h)
  have hgp : 0 < c.inM / msunh10 c.h := div_pos hc.inM (msunh10_pos hc.h)
  set f := c.inL / mpch c.h with hf
  set g := c.inM / msunh10 c.h with hg
  obtain ⟨parts, hsp, hplen, hpk⟩ := selected f g xyz masses box objs minPtcs hmin hs o
    (by rw [← ho]) (by rw [← ho]) (by rw [← ho]) (by rw [← ho]) sel hsel
  obtain ⟨parts', hsp', hplen', hpk'⟩ := selected f g xyz' masses box objs minPtcs hmin hs' o'
    (by rw [← ho']) (by rw [← ho']) (by rw [← ho']) (by rw [← ho']) sel hsel
  have hor : o.r200 = (resolved minPtcs objs).map fun o => o.2 * f := by rw [← ho]
  have hor' : o'.r200 = (resolved minPtcs objs).map fun o => o.2 * f := by rw [← ho']
  have hbox : o.box = box * f := by rw [← ho]
  obtain ⟨r200, hr⟩ : ∃ r, fancy o.r200 (sel.map Int.toNat) = some r := by
    apply mapM_exists
    intro i hi
    obtain ⟨z, hz, rfl⟩ := List.mem_map.1 hi
    have := hsel.2.2 z hz
    refine ⟨_, List.getElem?_eq_getElem ?_⟩
    rw [hor, List.length_map]
    omega
  have hrl : r200.length = sel.length := by
    rw [(mapM_some_get _ _ _ hr).1]; simp
  refine ⟨parts, parts', r200, hsp, hsp', hr, by rw [hor', ← hor]; exact hr, by omega, by omega,
    by rw [← ho, ← ho'], by rw [← ho, ← ho'], hbox, by rw [hbox]; exact mul_pos hs.box_pos hfp, ?_⟩
  rw [List.forall₂_iff_get]
  refine ⟨by omega, ?_⟩
  intro k hk hk'
  have hks : k < sel.length := by omega
  have hz := hsel.2.2 sel[k] (List.getElem_mem hks)
  have hlt : (sel[k]).toNat < (resolved minPtcs objs).length := by omega
  have hget := List.getElem?_eq_getElem hlt
  obtain ⟨h1, h2⟩ := hpk k _ _ (List.getElem?_eq_getElem hks) hget
  obtain ⟨h1', -⟩ := hpk' k _ _ (List.getElem?_eq_getElem hks) hget
  obtain ⟨hp1, hp2⟩ := hpiece _ (List.getElem_mem hks) _ hget
  obtain ⟨n, hn⟩ := particlesOf_displaced box hs.box_pos t xyz xyz' masses hd _ hp1 hp2
  generalize hobj : (resolved minPtcs objs)[(sel[k]).toNat] = obj at *
  have e1 : parts.get ⟨k, hk⟩ = (particlesOf xyz masses obj.1).map (scale f g) :=
    (List.getElem?_eq_some_iff.1 h1).2
  have e1' : parts'.get ⟨k, hk'⟩ = (particlesOf xyz' masses obj.1).map (scale f g) :=
    (List.getElem?_eq_some_iff.1 h1').2
  rw [e1, e1']
  refine ⟨by simpa using h2, ?_, ?_, n, ?_⟩
  · intro p hp
    obtain ⟨q, hq, rfl⟩ := List.mem_map.1 hp
    exact mul_pos (hs.masses_pos _ (mem_particlesOf hq).2) hgp
  · rw [hbox]; exact notCrossing_scale box f g hfp _ hp1.notCrossing
  · rw [hn, translate_scale, hbox]
    congr 1
    funext a
    ring

variable (choose : Nat → List Nat) (hch : ∀ n, 0 < n → ∃ j ∈ choose n, j < n) (limit : Nat) (c' : Cfg ℝ)
include hch

/-- C134 (partial). Move the whole simulation in its periodic box.  The shapes of selected objects which cross no face of the box before
and after are the same, entry by entry (or both calls fail in the same way), whatever the schedules of the parallel loops.  Missing: objects
which cross a face (`C134_crossing_refuted`). -/
theorem C134_shapes_partial (sol : Solver) (katz : Katz) (whole : Bool)
    (out out' : Except ShapeErr (List (List ShapeEntry)))
    (hrun : GetShapeCat c' sol choose limit o katz whole sel out)
    (hrun' : GetShapeCat c' sol choose limit o' katz whole sel out') : out' = out := by
  obtain ⟨parts, parts', r200, h1, h1', h2, h2', h3, h3', h4, h5, -, h6, h7⟩ := both_selected c hc xyz xyz' masses box objs minPtcs
    hmin center hs hs' t hd o o' ho ho' sel hsel hpiece
  rw [getShapeCat_fn c' sol choose limit o katz whole sel parts h1 r200 h2 h3 out hrun,
    getShapeCat_fn c' sol choose limit o' katz whole sel parts' h1' r200 h2' h3' out' hrun', h4, h5]
  unfold shapesOf
  rw [mapM_eq_of_map]
  clear h1 h1' h2 h2' hrun hrun'
  induction h7 generalizing r200 with
  | nil => rfl
  | @cons ps ps' rest rest' h _ ih =>
    cases r200 with
    | nil => simp at h3
    | cons r r200 =>
      simp only [List.zip_cons_cons, List.map_cons, List.cons.injEq]
      refine ⟨?_, ih r200 (by simpa using h3) (by simpa using h3')⟩
      obtain ⟨k, rfl⟩ := h.moved
      rw [shapeCentre_translate choose hch limit o.box h6 o.center _ ps h.nonempty h.masses h.piece]
      cases shapeCentre choose limit o.box o.center ps with
      | none => rfl
      | some v =>
        simp only [Option.map_some, Option.some.injEq]
        exact aloneShapes_translate (katz.settings sol o.box) h6 whole _ ps h.piece v r

/-- C134 (partial). The same for density profiles (spherical shells).  Missing: objects which cross a face (`C96_crossing_refuted`). -/
theorem C134_profiles_partial (radii : List ℝ) (hradii : radii ≠ [])
    (out out' : Except Err (List (List ℝ)))
    (hrun : EstDensProfs c' choose limit o radii sel out) (hrun' : EstDensProfs c' choose limit o' radii sel out') :
    out' = out := by
  obtain ⟨parts, parts', r200, h1, h1', h2, h2', h3, h3', h4, h5, -, h6, h7⟩ := both_selected c hc xyz xyz' masses box objs minPtcs
    hmin center hs hs' t hd o o' ho ho' sel hsel hpiece
  obtain ⟨edges, hedges⟩ : ∃ e, sphEdges radii = some e := by
    unfold sphEdges
    rw [List.getLast?_eq_some_getLast hradii]
    exact ⟨_, rfl⟩
  rw [estDensProfs_fn c' choose limit o radii edges hedges sel parts h1 r200 h2 h3 out hrun,
    estDensProfs_fn c' choose limit o' radii edges hedges sel parts' h1' r200 h2' h3' out' hrun', h4, h5]
  unfold profilesOf
  rw [mapM_eq_of_map]
  clear h1 h1' h2 h2' hrun hrun'
  induction h7 generalizing r200 with
  | nil => rfl
  | @cons ps ps' rest rest' h _ ih =>
    cases r200 with
    | nil => simp at h3
    | cons r r200 =>
      simp only [List.zip_cons_cons, List.map_cons, List.cons.injEq]
      refine ⟨?_, ih r200 (by simpa using h3) (by simpa using h3')⟩
      obtain ⟨k, rfl⟩ := h.moved
      rw [centreOf_translate choose hch limit o.box h6 o.center _ ps h.nonempty h.masses h.piece]
      cases centreOf choose limit o.box o.center ps with
      | none => rfl
      | some v =>
        simp only [Option.map_some, Option.some.injEq]
        rw [aloneProfile_translate o.box h6 edges _ ps h.piece v r]

/-- C134 (partial). The same for kernel-based density profiles. -/
theorem C134_kernel_partial (radii : List ℝ)
    (out out' : Except KernelErr (List (List ℝ)))
    (hrun : EstDensProfsKernel c' choose limit o radii sel out)
    (hrun' : EstDensProfsKernel c' choose limit o' radii sel out') : out' = out := by
  obtain ⟨parts, parts', r200, h1, h1', h2, h2', h3, h3', h4, h5, -, h6, h7⟩ := both_selected c hc xyz xyz' masses box objs minPtcs
    hmin center hs hs' t hd o o' ho ho' sel hsel hpiece
  have hsame : kernelOf choose limit o.box o.center radii (parts'.zip r200) =
      kernelOf choose limit o.box o.center radii (parts.zip r200) := by
    clear h1 h1' h2 h2' hrun hrun'
    induction h7 generalizing r200 with
    | nil => rfl
    | @cons ps ps' rest rest' h _ ih =>
      cases r200 with
      | nil => simp at h3
      | cons r r200 =>
        simp only [List.zip_cons_cons]
        unfold kernelOf
        obtain ⟨k, rfl⟩ := h.moved
        rw [centreOf_translate choose hch limit o.box h6 o.center _ ps h.nonempty h.masses h.piece]
        cases centreOf choose limit o.box o.center ps with
        | none => rfl
        | some v =>
          simp only [Option.map_some]
          rw [massDistances_translate o.box h6 _ ps h.piece v, ih r200 (by simpa using h3) (by simpa using h3')]
  rw [estDensProfsKernel_fn c' choose limit o radii sel parts h1 r200 h2 out hrun,
    estDensProfsKernel_fn c' choose limit o' radii sel parts' h1' r200 h2' out' hrun', h4, h5, hsame]

/-- C134 (partial). Masses stay the same, and centres move along in the periodic box. -/
theorem C134_centres_partial (hh : c'.h = c.h) (hc' : c'.Pos)
    (out out' : Except Err (List (Vec ℝ × ℝ)))
    (hrun : GetMassesCenters c' choose limit o sel out) (hrun' : GetMassesCenters c' choose limit o' sel out') :
    (out = .error .recursion ∧ out' = .error .recursion) ∨
    ∃ res res', out = .ok res ∧ out' = .ok res' ∧ List.Forall₂ (fun x x' : Vec ℝ × ℝ => x'.2 = x.2 ∧
      ∀ a, ∃ n : ℤ, x'.1 a * c'.outL = (x.1 a * c'.outL) + t a * c.inL + n * (box * c.inL)) res res' := by
  obtain ⟨parts, parts', r200, h1, h1', h2, h2', h3, h3', h4, h5, hb, h6, h7⟩ := both_selected c hc xyz xyz' masses box objs minPtcs
    hmin center hs hs' t hd o o' ho ho' sel hsel hpiece
  rw [getMassesCenters_fn c' choose limit o sel parts h1 out hrun,
    getMassesCenters_fn c' choose limit o' sel parts' h1' out' hrun', h4, h5]
  have key : Option.Rel (List.Forall₂ fun x x' : Vec ℝ × ℝ => x'.2 = x.2 ∧
      ∃ k : Fin 3 → ℤ, x'.1 = x.1 + fun a => t a * (c.inL / mpch c.h) + k a * o.box)
      (parts.mapM fun ps => (centreOf choose limit o.box o.center ps).map fun v => (v, totalMass ps))
      (parts'.mapM fun ps => (centreOf choose limit o.box o.center ps).map fun v => (v, totalMass ps)) := by
    clear h1 h1' h2 h2' h3 h3' hrun hrun'
    induction h7 with
    | nil => exact .some .nil
    | @cons ps ps' rest rest' h _ ih =>
      rw [List.mapM_cons, List.mapM_cons]
      obtain ⟨k, rfl⟩ := h.moved
      rw [centreOf_translate choose hch limit o.box h6 o.center _ ps h.nonempty h.masses h.piece]
      cases centreOf choose limit o.box o.center ps with
      | none => exact .none
      | some v =>
        simp only [Option.map_some, Option.bind_eq_bind, Option.bind_some]
        revert ih
        generalize (rest.mapM fun ps => (centreOf choose limit o.box o.center ps).map fun v => (v, totalMass ps)) = A
        generalize (rest'.mapM fun ps => (centreOf choose limit o.box o.center ps).map fun v => (v, totalMass ps)) = B
        intro ih
        cases ih with
        | none => exact .none
        | some hr =>
          refine .some (.cons ⟨?_, k, rfl⟩ hr)
          simp [totalMass, translate, Function.comp_def]
  unfold massesOf
  revert key
  generalize (parts.mapM fun ps => (centreOf choose limit o.box o.center ps).map fun v => (v, totalMass ps)) = A
  generalize (parts'.mapM fun ps => (centreOf choose limit o.box o.center ps).map fun v => (v, totalMass ps)) = B
  intro key
  cases key with
  | none => exact .inl ⟨rfl, rfl⟩
  | @some xs xs' hr =>
    right
    refine ⟨_, _, rfl, rfl, ?_⟩
    rw [List.forall₂_map_left_iff, List.forall₂_map_right_iff]
    refine hr.imp ?_
    rintro ⟨v, m⟩ ⟨v', m'⟩ ⟨e, k, e'⟩
    simp only at e e' ⊢
    subst e e'
    refine ⟨rfl, fun a => ?_⟩
    have hre : ∀ x : ℝ, ∃ n : ℤ, recentreAxis o.box x = x + n * o.box := by
      intro x
      unfold recentreAxis
      dsimp only
      split_ifs
      · exact ⟨0, by push_cast; ring⟩
      · exact ⟨-1, by push_cast; ring⟩
      · exact ⟨1, by push_cast; ring⟩
      · exact ⟨0, by push_cast; ring⟩
    obtain ⟨n, hn⟩ := hre (v a)
    obtain ⟨n', hn'⟩ := hre (v a + (t a * (c.inL / mpch c.h) + k a * o.box))
    refine ⟨n' + k a - n, ?_⟩
    simp only [Pi.add_apply]
    rw [hn, hn', hb, hh]
    have h8 := (mpch_pos hc.h).ne'
    have h9 := hc'.outL.ne'
    push_cast
    field_simp
    ring

end

/-- The full property is false: the cross of `C106_cross`, moved down by five in a box of size 1000 so that it crosses a face, has no shape
any more. -/
theorem C134_crossing_refuted (h : ℝ) (hh : 0 < h) (sol : Solver) (hsol : GoodSolver sol)
    (choose : Nat → List Nat) (hch : ∀ n, 0 < n → ∃ j ∈ choose n, j < n) (limit : Nat) (o o' : Obj)
    (ho : construct ⟨mpch h, msunh10 h, 1, h, mpch h, msunh10 h, 1⟩ ⟨crossXyz, [1, 1, 1, 1, 1, 1],
      .nested [[0, 1, 2, 3, 4, 5]], .array [100], 1000, 6, .com⟩ = .ok o)
    (ho' : construct ⟨mpch h, msunh10 h, 1, h, mpch h, msunh10 h, 1⟩ ⟨movedXyz, [1, 1, 1, 1, 1, 1],
      .nested [[0, 1, 2, 3, 4, 5]], .array [100], 1000, 6, .com⟩ = .ok o')
    (out out' : Except ShapeErr (List (List ShapeEntry)))
    (hrun : GetShapeCat ⟨mpch h, msunh10 h, 1, h, mpch h, msunh10 h, 1⟩ sol choose limit o
      ⟨[1], 1 / 10, 100, 6, false, false⟩ false [0] out)
    (hrun' : GetShapeCat ⟨mpch h, msunh10 h, 1, h, mpch h, msunh10 h, 1⟩ sol choose limit o'
      ⟨[1], 1 / 10, 100, 6, false, false⟩ false [0] out') :
    Displaced 1000 ![0, 0, -5] crossXyz movedXyz ∧
    ∃ e e' : ShapeEntry, out = .ok [[e]] ∧ out' = .ok [[e']] ∧ e.conv = true ∧ e'.conv = false ∧
      e.q = some (2 / 3) ∧ e'.q = none := by
  obtain ⟨e, h1, h2, -, h3, -⟩ := C106_cross 1000 (by norm_num) h hh sol hsol choose hch limit o ho out hrun
  obtain ⟨e', h1', h2', -, h3', -⟩ := C106_crossing_refuted h hh sol choose limit o' ho' out' hrun'
  exact ⟨movedXyz_images, e, e', h1, h1', h2, h2', h3, h3'⟩

/-- The cross, moved by ten along the first axis and five along the third. -/
noncomputable def shiftedXyz : List (Vec ℝ) :=
  [![18, 5, 10], ![12, 5, 10], ![15, 7, 10], ![15, 3, 10], ![15, 5, 11], ![15, 5, 9]]

/-- Non-vacuity: the cross and the shifted cross meet the hypotheses of the theorems above. -/
example : Sensible crossXyz [1, 1, 1, 1, 1, 1] 1000 [([0, 1, 2, 3, 4, 5], 100)] ∧
    Sensible shiftedXyz [1, 1, 1, 1, 1, 1] 1000 [([0, 1, 2, 3, 4, 5], 100)] ∧
    Displaced 1000 ![10, 0, 5] crossXyz shiftedXyz ∧
    GoodSelection [0] (resolved 6 [([0, 1, 2, 3, 4, 5], (100 : ℝ))]).length ∧
    (∀ z ∈ ([0] : List Int), ∀ obj, (resolved 6 [([0, 1, 2, 3, 4, 5], (100 : ℝ))])[z.toNat]? = some obj →
      InOnePiece 1000 (particlesOf crossXyz [1, 1, 1, 1, 1, 1] obj.1) ∧
      InOnePiece 1000 (particlesOf shiftedXyz [1, 1, 1, 1, 1, 1] obj.1)) := by
  have hres : resolved 6 [([0, 1, 2, 3, 4, 5], (100 : ℝ))] = [([0, 1, 2, 3, 4, 5], 100)] := by
    simp [resolved]
  refine ⟨?_, ?_, ?_, ?_, ?_⟩
  · refine ⟨rfl, by norm_num, ?_, ?_, by simp, ?_⟩
    · intro x hx a
      simp only [crossXyz, List.mem_cons, List.not_mem_nil, or_false] at hx
      rcases hx with rfl | rfl | rfl | rfl | rfl | rfl <;> fin_cases a <;> norm_num
    · intro m hm
      simp only [List.mem_cons, List.not_mem_nil, or_false, or_self] at hm
      rw [hm]; norm_num
    · intro o ho i hi
      simp only [List.mem_singleton] at ho
      subst ho
      simp only [List.mem_cons, List.not_mem_nil, or_false] at hi
      simp only [crossXyz, List.length_cons, List.length_nil]
      omega
  · refine ⟨rfl, by norm_num, ?_, ?_, by simp, ?_⟩
    · intro x hx a
      simp only [shiftedXyz, List.mem_cons, List.not_mem_nil, or_false] at hx
      rcases hx with rfl | rfl | rfl | rfl | rfl | rfl <;> fin_cases a <;> norm_num
    · intro m hm
      simp only [List.mem_cons, List.not_mem_nil, or_false, or_self] at hm
      rw [hm]; norm_num
    · intro o ho i hi
      simp only [List.mem_singleton] at ho
      subst ho
      simp only [List.mem_cons, List.not_mem_nil, or_false] at hi
      simp only [shiftedXyz, List.length_cons, List.length_nil]
      omega
  · unfold Displaced crossXyz shiftedXyz
    refine .cons ?_ (.cons ?_ (.cons ?_ (.cons ?_ (.cons ?_ (.cons ?_ .nil))))) <;>
      (intro a; refine ⟨0, ?_⟩; fin_cases a <;> norm_num)
  · rw [hres]; simp [GoodSelection]
  · intro z hz obj hobj
    rw [hres] at hobj
    simp only [List.mem_singleton] at hz
    subst hz
    simp only [Int.toNat_zero, List.getElem?_cons_zero, Option.some.injEq] at hobj
    subst hobj
    constructor
    · have : particlesOf crossXyz [1, 1, 1, 1, 1, 1] [0, 1, 2, 3, 4, 5] =
          [⟨![8, 5, 5], 1⟩, ⟨![2, 5, 5], 1⟩, ⟨![5, 7, 5], 1⟩, ⟨![5, 3, 5], 1⟩, ⟨![5, 5, 6], 1⟩, ⟨![5, 5, 4], 1⟩] := by
        simp [particlesOf, crossXyz]
      intro p hp q hq a
      have bd : ∀ p ∈ particlesOf crossXyz [1, 1, 1, 1, 1, 1] [0, 1, 2, 3, 4, 5], ∀ a, 0 ≤ p.pos a ∧ p.pos a ≤ 20 := by
        intro p hp a
        rw [this] at hp
        simp only [List.mem_cons, List.not_mem_nil, or_false] at hp
        rcases hp with rfl | rfl | rfl | rfl | rfl | rfl <;> fin_cases a <;> norm_num
      rw [abs_lt]
      constructor <;> linarith [(bd p hp a).1, (bd p hp a).2, (bd q hq a).1, (bd q hq a).2]
    · have : particlesOf shiftedXyz [1, 1, 1, 1, 1, 1] [0, 1, 2, 3, 4, 5] =
          [⟨![18, 5, 10], 1⟩, ⟨![12, 5, 10], 1⟩, ⟨![15, 7, 10], 1⟩, ⟨![15, 3, 10], 1⟩, ⟨![15, 5, 11], 1⟩,
            ⟨![15, 5, 9], 1⟩] := by
        simp [particlesOf, shiftedXyz]
      intro p hp q hq a
      have bd : ∀ p ∈ particlesOf shiftedXyz [1, 1, 1, 1, 1, 1] [0, 1, 2, 3, 4, 5], ∀ a, 0 ≤ p.pos a ∧ p.pos a ≤ 20 := by
        intro p hp a
        rw [this] at hp
        simp only [List.mem_cons, List.not_mem_nil, or_false] at hp
        rcases hp with rfl | rfl | rfl | rfl | rfl | rfl <;> fin_cases a <;> norm_num
      rw [abs_lt]
      constructor <;> linarith [(bd p hp a).1, (bd p hp a).2, (bd q hq a).1, (bd q hq a).2]

end Verif.Api
