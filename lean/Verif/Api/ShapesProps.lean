import Verif.Api.Shapes
import Verif.Api.DensProps
import Verif.Shapes.Scaling

/-!
# Shapes belong to the data handed in (C106)
-/

set_option linter.unusedSectionVars false

namespace Verif.Api

open Verif.Units Verif.Catalogue Verif.Periodic Verif.Par Verif.Shapes
open Verif.Api (unwrapped)

/-! ## Specification -/

/-- The task of finding the shape of the particles `ps` (positions and masses in the user's units)
around `centre`, within an ellipsoid of semi-major axis `d` (shell of thickness `δ`). -/
def task (katz : Katz) (sol : Solver) (ps : List (Particle ℝ)) (centre : Vec ℝ) (dδ : ℝ × Option ℝ) :
    Config :=
  ⟨ps.map fun p => ⟨p.pos, p.pos, p.mass⟩, centre, centre, dδ.1, dδ.2, katz.tol, katz.wall, katz.itMin,
    katz.reduced, sol⟩

/-- Semi-major axis and shell thickness wanted for column `b`: local shapes are wanted at the given
multiples of R200 (shells reach down to the previous one; the first shell is a full ellipsoid); global
shapes within R200 plus a margin, which is 6 Mpc/h. -/
noncomputable def wantedVolume (katz : Katz) (whole : Bool) (r200 margin : ℝ) (b : Nat) : ℝ × Option ℝ :=
  if whole then (r200 + margin, none)
  else
    let d := r200 * katz.radii[b]?.getD 0
    (d, if katz.shellBased then
        if b = 0 then some d else some (d - r200 * katz.radii[b - 1]?.getD 0) else none)

/-- Number of columns of the reply. -/
def wantedColumns (katz : Katz) (whole : Bool) : Nat := if whole then 1 else katz.radii.length

/-- A component of an axis as reported: exact zeros are shown as NaN (see C40). -/
noncomputable def shown (x : ℝ) : Option ℝ := if x = 0 then none else some x

/-- The entry is what the task demands: all NaN with a reason, or the shape found. -/
def Answers (cfg : Config) (inL outL : ℝ) (e : ShapeEntry) : Prop :=
  (e.conv = false ∧ e.d = none ∧ e.q = none ∧ e.s = none ∧
    (∀ a, e.major a = none ∧ e.inter a = none ∧ e.minor a = none) ∧
    (Unclassifiable cfg ∨ ∀ p ∈ cfg.pts, ∀ p' ∈ cfg.pts, p.x = p'.x)) ∨
  ∃ m d, Classified cfg m ∧ e.conv = true ∧ e.q = some m.q ∧ e.s = some m.s ∧
    e.d = some d ∧ d * outL = cfg.d * inL ∧
    ∀ a, e.major a = shown (m.major a) ∧ e.inter a = shown (m.inter a) ∧ e.minor a = shown (m.minor a)

/-! ## One object -/

theorem localSpread_zero (pts : List Pt) (h : localSpread pts = 0) :
    ∀ p ∈ pts, ∀ p' ∈ pts, p.x = p'.x := by
  intro p hp p' hp'
  unfold localSpread at h
  extract_lets n mean at h
  clear_value mean
  have hn : (0 : ℝ) < pts.length := by
    have : 0 < pts.length := List.length_pos_of_mem hp
    exact_mod_cast this
  have hfold : ∀ (l : List Pt) (a : ℝ) (F : Pt → ℝ), l.foldl (fun acc p => acc + F p) a =
      a + (l.map F).sum := by
    intro l
    induction l with
    | nil => simp
    | cons x l ih => intro a F; rw [List.foldl_cons, ih]; simp [add_assoc]
  rw [hfold pts 0 fun p => √((p.x 0 - mean 0) ^ 2 + (p.x 1 - mean 1) ^ 2 + (p.x 2 - mean 2) ^ 2) /
    (pts.length : ℝ), zero_add] at h
  have key : ∀ p ∈ pts, p.x = mean := by
    intro p hp
    have := sum_zero_of_nonneg pts _ (fun a _ => by positivity) h p hp
    have := (div_eq_zero_iff.1 this).resolve_right hn.ne'
    rw [Real.sqrt_eq_zero (by positivity)] at this
    have e0 : (p.x 0 - mean 0) ^ 2 = 0 := by
      nlinarith [sq_nonneg (p.x 0 - mean 0), sq_nonneg (p.x 1 - mean 1), sq_nonneg (p.x 2 - mean 2)]
    have e1 : (p.x 1 - mean 1) ^ 2 = 0 := by
      nlinarith [sq_nonneg (p.x 0 - mean 0), sq_nonneg (p.x 1 - mean 1), sq_nonneg (p.x 2 - mean 2)]
    have e2 : (p.x 2 - mean 2) ^ 2 = 0 := by
      nlinarith [sq_nonneg (p.x 0 - mean 0), sq_nonneg (p.x 1 - mean 1), sq_nonneg (p.x 2 - mean 2)]
    funext i
    fin_cases i
    · exact sub_eq_zero.1 (pow_eq_zero_iff two_ne_zero |>.1 e0)
    · exact sub_eq_zero.1 (pow_eq_zero_iff two_ne_zero |>.1 e1)
    · exact sub_eq_zero.1 (pow_eq_zero_iff two_ne_zero |>.1 e2)
  rw [key p hp, key p' hp']

theorem pureOne_outcome (cfg : Config) (morph : Morph)
    (hsol : GoodSolver cfg.solver) (hm : ∀ p ∈ cfg.pts, 0 < p.m) (htol : cfg.tol < 1) :
    (∃ m, pureOne cfg morph = some m ∧ Classified cfg m) ∨
    (pureOne cfg morph = some .zero ∧ Unclassifiable cfg) ∨
    (pureOne cfg morph = none ∧ Degenerate cfg) := by
  let sc : Scratch := ⟨[], List.replicate cfg.pts.length 0, List.replicate cfg.pts.length 0, fun _ _ => 0⟩
  have hf : Fits cfg sc := ⟨by simp [sc], by simp [sc]⟩
  have hpure := (runOne_pure cfg morph sc hf.1 hf.2).1
  rcases C105_outcome cfg morph sc hf hsol hm htol _ (le_refl _) with ⟨m, sc', h, hc⟩ | ⟨sc', h, hc⟩ | ⟨h, hc⟩
  · left
    refine ⟨m, ?_, hc⟩
    rw [← hpure]; unfold runOne; rw [h]; rfl
  · right; left
    refine ⟨?_, hc⟩
    rw [← hpure]; unfold runOne; rw [h]; rfl
  · right; right
    refine ⟨?_, hc⟩
    rw [← hpure]; unfold runOne; rw [h]; rfl

/-- The volume of column `b` in internal units. -/
noncomputable def volumeAt (st : Settings) (whole : Bool) (r200 : ℝ) (b : Nat) : ℝ × Option ℝ :=
  if whole then (r200 + st.safe, none) else shellAt st r200 b

theorem aloneShapes_outcome (st : Settings) (whole : Bool) (o : ObjData)
    (hsol : GoodSolver st.solver) (hm : ∀ p ∈ positionPts st o, 0 < p.m) (htol : st.tol < 1)
    (hr : o.r200 ≠ 0) :
    (∃ ms, aloneShapes st (kindOf whole) o = some ms ∧ ms.length = columns st (kindOf whole) ∧
      ∀ (b : Nat) (m : Morph), ms[b]? = some m →
        Classified (st.config (positionPts st o) o.center o.center (volumeAt st whole o.r200 b).1
          (volumeAt st whole o.r200 b).2) m ∨
        (m = .zero ∧ (Unclassifiable (st.config (positionPts st o) o.center o.center
          (volumeAt st whole o.r200 b).1 (volumeAt st whole o.r200 b).2) ∨
          localSpread (positionPts st o) = 0))) ∨
    (aloneShapes st (kindOf whole) o = none ∧ ∃ b, b < columns st (kindOf whole) ∧
      Degenerate (st.config (positionPts st o) o.center o.center (volumeAt st whole o.r200 b).1
          (volumeAt st whole o.r200 b).2)) := by
  set n := columns st (kindOf whole) with hn
  have hform : aloneShapes st (kindOf whole) o =
      if localSpread (positionPts st o) = 0 then some (List.replicate n .zero)
      else pureLoop st (positionPts st o) o.center o.center ((List.range n).map fun k =>
        (volumeAt st whole o.r200 k, { Morph.zero with d := (volumeAt st whole o.r200 k).1 })) := by
    cases whole with
    | false =>
      show pureLocal st (positionPts st o) o.center o.center o.r200 st.radii.length = _
      unfold pureLocal
      rw [if_neg hr]
      rfl
    | true =>
      show pureGlobal st (positionPts st o) o.center o.center o.r200 1 = _
      rfl
  rw [hform]
  by_cases hsp : localSpread (positionPts st o) = 0
  · left
    rw [if_pos hsp]
    refine ⟨_, rfl, by simp, ?_⟩
    intro b m hb
    have := List.eq_of_mem_replicate (List.mem_of_getElem? hb)
    exact .inr ⟨this, .inr hsp⟩
  · rw [if_neg hsp]
    have hout := fun k => pureOne_outcome (st.config (positionPts st o) o.center o.center
      (volumeAt st whole o.r200 k).1 (volumeAt st whole o.r200 k).2)
      { Morph.zero with d := (volumeAt st whole o.r200 k).1 } hsol hm htol
    cases hloop : pureLoop st (positionPts st o) o.center o.center ((List.range n).map fun k =>
        (volumeAt st whole o.r200 k, { Morph.zero with d := (volumeAt st whole o.r200 k).1 })) with
    | some ms =>
      left
      unfold pureLoop at hloop
      obtain ⟨hlen, hget⟩ := mapM_some_get _ _ _ hloop
      refine ⟨ms, rfl, by rw [hlen]; simp, ?_⟩
      intro b m hb
      have hlt : b < n := by
        have := (List.getElem?_eq_some_iff.1 hb).1
        rw [hlen] at this; simpa using this
      obtain ⟨m', hm', hone⟩ := hget b (volumeAt st whole o.r200 b,
        { Morph.zero with d := (volumeAt st whole o.r200 b).1 }) (by
          rw [List.getElem?_map, List.getElem?_range hlt]; rfl)
      rw [hb] at hm'
      obtain rfl := Option.some.inj hm'
      simp only at hone
      rcases hout b with ⟨m', e, hc⟩ | ⟨e, hc⟩ | ⟨e, -⟩
      · rw [hone] at e
        obtain rfl := Option.some.inj e
        exact .inl hc
      · rw [hone] at e
        obtain rfl := Option.some.inj e
        exact .inr ⟨rfl, .inl hc⟩
      · rw [hone] at e; cases e
    | none =>
      right
      refine ⟨rfl, ?_⟩
      unfold pureLoop at hloop
      obtain ⟨row, hrow, hnone⟩ := Verif.Api.mapM_none _ _ hloop
      obtain ⟨b, hb, rfl⟩ := List.mem_map.1 hrow
      simp only at hnone
      refine ⟨b, by simpa using hb, ?_⟩
      rcases hout b with ⟨m', e, -⟩ | ⟨e, -⟩ | ⟨-, hc⟩
      · rw [hnone] at e; cases e
      · rw [hnone] at e; cases e
      · exact hc

/-! ## Centres -/

theorem shapeCentre_mean (choose : Nat → List Nat) (limit : Nat) (L : ℝ) (hL : 0 < L) (center : Center)
    (ps : List (Particle ℝ)) (hne : ps ≠ []) (hm : ∀ p ∈ ps, 0 < p.mass) (v : Vec ℝ)
    (h : shapeCentre choose limit L center ps = some v) :
    ∃ sub : List (Particle ℝ), sub.Sublist (unwrapped choose L ps) ∧ sub ≠ [] ∧
      (center = .com → sub = unwrapped choose L ps) ∧ v = weightedMean sub := by
  have hu := unwrapped_eq choose L hL ps
  have hune : unwrapped choose L ps ≠ [] := by rw [hu]; simpa using hne
  have hum : ∀ p ∈ unwrapped choose L ps, 0 < p.mass := by
    intro p hp
    rw [hu] at hp
    obtain ⟨q, hq, rfl⟩ := List.mem_map.1 hp
    exact hm q hq
  unfold shapeCentre at h
  cases center with
  | mode =>
    obtain ⟨sub, h1, h2, h3⟩ := calcMode_is_mean _ _ _ _ h
    exact ⟨sub, h1, fun e => hune (h2 e), by simp, h3⟩
  | com =>
    refine ⟨_, List.Sublist.refl _, hune, fun _ => rfl, ?_⟩
    have := Option.some.inj h
    rw [← this]
    exact calcCoM_eq _ _ (totalMass_pos _ hune hum).ne'

/-! ## Rows -/

/-- Particles of an object which does not cross a face, as the shape algorithm sees them. -/
theorem positionPts_of_notCrossing (st : Settings) (hL : 0 < st.box) (ps : List (Particle ℝ)) (v : Vec ℝ)
    (r : ℝ) (h : NotCrossing st.box ps) :
    positionPts st ⟨ps.map fun p => ⟨p.pos, 0, p.mass⟩, v, r⟩ =
      ps.map fun p => (⟨p.pos, p.pos, p.mass⟩ : Pt) := by
  have := cy_of_notCrossing st.box hL ps h
  unfold positionPts Shapes.unwrapped
  simp only [List.map_map]
  show List.zipWith _ (cyRespectPBCNoRef (ps.map fun p => p.pos) st.box) _ = _
  rw [List.zipWith_map_right] at this ⊢
  have h2 := congrArg (List.map fun p : Particle ℝ => (⟨p.pos, p.pos, p.mass⟩ : Pt)) this
  rw [List.map_zipWith] at h2
  exact h2

theorem positionPts_mass (st : Settings) (o : ObjData) (h : ∀ p ∈ o.particles, 0 < p.mass) :
    ∀ p ∈ positionPts st o, 0 < p.m := by
  intro p hp
  unfold positionPts at hp
  obtain ⟨i, hi⟩ := List.mem_iff_getElem?.1 hp
  rw [List.getElem?_zipWith_eq_some] at hi
  obtain ⟨x, q, -, hq, rfl⟩ := hi
  exact h q (List.mem_of_getElem? hq)

theorem freshScratch_inv (st : Settings) (whole : Bool) (largest : Nat) :
    Shapes.Inv st (kindOf whole) largest (freshScratch st (kindOf whole) largest) := by
  unfold Shapes.Inv freshScratch
  refine ⟨by simp, by simp, by simp, by simp, by simp, by simp, ?_⟩
  intro _; rfl

/-- Every object of the selection: particles, centre and result of the loop. -/
theorem shape_rows (c c' : Cfg ℝ)
    (xyz : List (Vec ℝ)) (masses : List ℝ) (box : ℝ) (objs : List (List Nat × ℝ)) (minPtcs : Int)
    (hmin : 1 ≤ minPtcs) (center : Center) (hs : Sensible xyz masses box objs) (sol : Solver)
    (choose : Nat → List Nat) (limit : Nat) (o : Obj)
    (ho : construct c ⟨xyz, masses, .nested (objs.map Prod.fst), .array (objs.map Prod.snd), box,
      minPtcs, center⟩ = .ok o)
    (katz : Katz) (whole : Bool)
    (sel : List Int) (hsel : GoodSelection sel (resolved minPtcs objs).length)
    (out : Except ShapeErr (List (List ShapeEntry)))
    (hrun : GetShapeCat c' sol choose limit o katz whole sel out) :
    (out = .error (.api .recursion) ∧ center = .mode) ∨
    ∃ rows : List (Option (List Morph)), rows.length = sel.length ∧
      (out = .error .zeroDivision ∧ (∃ k : Nat, rows[k]? = some none) ∨
        ∃ res, out = .ok res ∧ res.length = sel.length ∧ ∀ (k : Nat) (row : Option (List Morph)),
          rows[k]? = some row → ∃ ms, row = some ms ∧
            res[k]? = some (ms.map (entryOf (mpch c'.h / c'.outL)))) ∧
      ∀ (k : Nat) (z : Int) (obj : List Nat × ℝ), sel[k]? = some z →
        (resolved minPtcs objs)[z.toNat]? = some obj →
        particlesOf xyz masses obj.1 ≠ [] ∧
        ∃ v, shapeCentre choose limit (box * (c.inL / mpch c.h)) center
            ((particlesOf xyz masses obj.1).map (scale (c.inL / mpch c.h) (c.inM / msunh10 c.h))) = some v ∧
          rows[k]? = some (aloneShapes (katz.settings sol (box * (c.inL / mpch c.h))) (kindOf whole)
            ⟨((particlesOf xyz masses obj.1).map (scale (c.inL / mpch c.h) (c.inM / msunh10 c.h))).map
              fun p => ⟨p.pos, 0, p.mass⟩, v, obj.2 * (c.inL / mpch c.h)⟩) := by
  rw [construct_eq c xyz masses box objs minPtcs center hs.lengths hs.objects] at ho
  have ho := Except.ok.inj ho
  set f := c.inL / mpch c.h with hf
  set g := c.inM / msunh10 c.h with hg
  obtain ⟨parts', hsp, hplen, hpk'⟩ := selected f g xyz masses box objs minPtcs hmin hs o
    (by rw [← ho]) (by rw [← ho]) (by rw [← ho]) (by rw [← ho]) sel hsel
  have hocen : o.center = center := by rw [← ho]
  have hobox : o.box = box * f := by rw [← ho]
  have hor : o.r200 = (resolved minPtcs objs).map fun o => o.2 * f := by rw [← ho]
  cases hrun with
  | rejected e h => rw [hsp] at h; cases h
  | diverges parts h hcd =>
    left
    refine ⟨rfl, ?_⟩
    obtain ⟨ps, -, hps⟩ := Verif.Api.mapM_none _ _ hcd
    rw [hocen] at hps
    unfold shapeCentre at hps
    cases center with
    | mode => rfl
    | com => cases hps
  | looped parts h centers hcen r200 hr data hd largest hlarge ws ex l m hu _ hout =>
    right
    rw [hsp] at h
    have hparts := Except.ok.inj h
    subst hparts
    rw [internalLM_eq] at hu
    have hu := Except.ok.inj hu
    obtain ⟨rfl, rfl⟩ := Prod.mk.inj hu
    rw [hobox] at ex hout
    rw [hocen, hobox] at hcen
    have hdk : ∀ (k : Nat) (z : Int) (obj : List Nat × ℝ), sel[k]? = some z →
        (resolved minPtcs objs)[z.toNat]? = some obj →
        ∃ v, shapeCentre choose limit (box * f) center
            ((particlesOf xyz masses obj.1).map (scale f g)) = some v ∧
          data[k]? = some ⟨((particlesOf xyz masses obj.1).map (scale f g)).map
              fun p => ⟨p.pos, 0, p.mass⟩, v, obj.2 * f⟩ := by
      intro k z obj hk hobj
      obtain ⟨hpk, -⟩ := hpk' k z obj hk hobj
      obtain ⟨v, hv, hcv⟩ := (mapM_some_get _ _ _ hcen).2 k _ hpk
      have hrk : r200[k]? = some (obj.2 * f) := by
        obtain ⟨r, h1, h2⟩ := (mapM_some_get _ _ _ hr).2 k z.toNat (by
          rw [List.getElem?_map, hk]; rfl)
        rw [hor, List.getElem?_map, hobj] at h2
        rw [h1, ← Option.some.inj h2]
      refine ⟨v, hcv, ?_⟩
      rw [hd, List.getElem?_zipWith, hrk]
      have : (parts'.zip centers)[k]? = some ((particlesOf xyz masses obj.1).map (scale f g), v) := by
        rw [List.getElem?_zip_eq_some]; exact ⟨hpk, hv⟩
      rw [this]
    have hdata : ∀ d ∈ data, d.particles.length ≤ largest := by
      intro d hdm
      rw [hd] at hdm
      obtain ⟨i, hi⟩ := List.mem_iff_getElem?.1 hdm
      rw [List.getElem?_zipWith_eq_some] at hi
      obtain ⟨pc, r, h1, -, rfl⟩ := hi
      have := (List.getElem?_zip_eq_some.1 h1).1
      simpa using hlarge _ (List.mem_of_getElem? this)
    have hdlen : data.length = parts'.length := by
      have h1 := (mapM_some_get _ _ _ hcen).1
      have h2 := (mapM_some_get _ _ _ hr).1
      rw [hd]
      simp only [List.length_zipWith, List.length_zip, h1, h2, List.length_map, hplen]
      omega
    set st := katz.settings sol (box * f) with hst
    have hslot : ∀ (k : Nat) (od : ObjData), data[k]? = some od →
        ((runSteps ws ⟨fun _ => freshScratch st (kindOf whole) largest, fun _ => ⟨0, none⟩⟩).out k).morphs =
        aloneShapes st (kindOf whole) od := by
      intro k od hk
      rw [C41_schedule_independent st (kindOf whole) data largest hdata _
        (fun _ => freshScratch_inv st whole largest) none ws ex k od hk]
    refine ⟨data.map (aloneShapes st (kindOf whole)), by rw [List.length_map, hdlen, hplen], ?_, ?_⟩
    · cases hrows : loopRows st (kindOf whole) largest parts'.length ws with
      | none =>
        left
        rw [hrows] at hout
        refine ⟨hout, ?_⟩
        unfold loopRows at hrows
        obtain ⟨k, hk, hnone⟩ := Verif.Api.mapM_none _ _ hrows
        have hk : k < data.length := by rw [hdlen]; simpa using hk
        have hget : data[k]? = some data[k] := List.getElem?_eq_getElem hk
        rw [hslot k _ hget] at hnone
        refine ⟨k, ?_⟩
        rw [List.getElem?_map, hget, Option.map_some, hnone]
      | some rws =>
        right
        rw [hrows] at hout
        unfold loopRows at hrows
        obtain ⟨hlen, hget⟩ := mapM_some_get _ _ _ hrows
        refine ⟨_, hout, by simp [hlen, hplen], ?_⟩
        intro k row hk
        rw [List.getElem?_map] at hk
        obtain ⟨od, hod, rfl⟩ := Option.map_eq_some_iff.1 hk
        have hklt : k < parts'.length := by
          rw [← hdlen]; exact (List.getElem?_eq_some_iff.1 hod).1
        obtain ⟨ms, h1, h2⟩ := hget k k (by rw [List.getElem?_range hklt])
        rw [hslot k od hod] at h2
        exact ⟨ms, h2, by rw [List.getElem?_map, h1]; rfl⟩
    · intro k z obj hk hobj
      obtain ⟨v, hv, hd⟩ := hdk k z obj hk hobj
      refine ⟨(hpk' k z obj hk hobj).2, v, hv, ?_⟩
      rw [List.getElem?_map, hd]; rfl

/-- The task in internal units. -/
theorem task_scale (katz : Katz) (sol : Solver) (f g box : ℝ) (ps : List (Particle ℝ))
    (centre : Vec ℝ) (whole : Bool) (r200 margin : ℝ) (hmargin : margin * f = 6) (b : Nat) :
    (katz.settings sol box).config ((ps.map (scale f g)).map fun p => (⟨p.pos, p.pos, p.mass⟩ : Pt))
      (fun a => centre a * f) (fun a => centre a * f)
      (volumeAt (katz.settings sol box) whole (r200 * f) b).1
      (volumeAt (katz.settings sol box) whole (r200 * f) b).2 =
    scaleCfg f g (task katz sol ps centre (wantedVolume katz whole r200 margin b)) := by
  have hv : volumeAt (katz.settings sol box) whole (r200 * f) b =
      ((wantedVolume katz whole r200 margin b).1 * f,
        (wantedVolume katz whole r200 margin b).2.map (· * f)) := by
    unfold volumeAt wantedVolume
    cases whole with
    | true =>
      simp only [if_true, Katz.settings, Option.map_none, Prod.mk.injEq, and_true]
      rw [← hmargin]; ring
    | false =>
      simp only [Bool.false_eq_true, if_false]
      unfold shellAt
      dsimp only
      by_cases hsh : katz.shellBased = true
      · rw [if_pos hsh, if_pos (show (katz.settings sol box).shellBased = true from hsh)]
        show (r200 * f * katz.radii[b]?.getD 0,
          if b = 0 then some (r200 * f * katz.radii[b]?.getD 0)
          else some (r200 * f * katz.radii[b]?.getD 0 - r200 * f * katz.radii[b - 1]?.getD 0)) = _
        by_cases hb : b = 0
        · simp [hb, mul_right_comm]
        · simp only [hb, if_false, Option.map_some, Prod.mk.injEq, Option.some.injEq]
          constructor <;> ring
      · rw [if_neg hsh, if_neg (show ¬ (katz.settings sol box).shellBased = true from hsh)]
        show (r200 * f * katz.radii[b]?.getD 0, none) = _
        simp [mul_right_comm]
  rw [hv]
  unfold Settings.config scaleCfg task
  simp only [List.map_map, Katz.settings, Config.mk.injEq, and_true]
  apply List.map_congr_left
  intro p _
  rfl

/-! ## C106 -/

/-- C106 with the centre as the code computes it. -/
theorem shapes_core (c c' : Cfg ℝ) (hc : c.Pos) (hc' : c'.Pos) (hh : c'.h = c.h)
    (xyz : List (Vec ℝ)) (masses : List ℝ) (box : ℝ) (objs : List (List Nat × ℝ)) (minPtcs : Int)
    (hmin : 1 ≤ minPtcs) (center : Center) (hs : Sensible xyz masses box objs)
    (hr200 : ∀ o ∈ objs, 0 < o.2) (sol : Solver) (hsol : GoodSolver sol)
    (choose : Nat → List Nat) (hch : ∀ n, 0 < n → ∃ j ∈ choose n, j < n) (limit : Nat) (o : Obj)
    (ho : construct c ⟨xyz, masses, .nested (objs.map Prod.fst), .array (objs.map Prod.snd), box,
      minPtcs, center⟩ = .ok o)
    (katz : Katz) (htol : katz.tol < 1) (hradii : ∀ r ∈ katz.radii, 0 < r) (whole : Bool)
    (sel : List Int) (hsel : GoodSelection sel (resolved minPtcs objs).length)
    (out : Except ShapeErr (List (List ShapeEntry)))
    (hrun : GetShapeCat c' sol choose limit o katz whole sel out) :
    (out = .error (.api .recursion) ∧ center = .mode) ∨
    (out = .error .zeroDivision ∧ ∃ (k : Nat) (z : Int) (obj : List Nat × ℝ), sel[k]? = some z ∧
      (resolved minPtcs objs)[z.toNat]? = some obj ∧
      (NotCrossing box (particlesOf xyz masses obj.1) →
        ∃ sub, sub.Sublist (particlesOf xyz masses obj.1) ∧ sub ≠ [] ∧
          (center = .com → sub = particlesOf xyz masses obj.1) ∧
          shapeCentre choose limit (box * (c.inL / mpch c.h)) center ((particlesOf xyz masses obj.1).map
            (scale (c.inL / mpch c.h) (c.inM / msunh10 c.h))) = some (fun a => weightedMean sub a * (c.inL / mpch c.h)) ∧
          ∃ b, b < wantedColumns katz whole ∧ Degenerate (task katz sol (particlesOf xyz masses obj.1)
            (weightedMean sub) (wantedVolume katz whole obj.2 (6 * mpch c.h / c.inL) b)))) ∨
    ∃ res, out = .ok res ∧ res.length = sel.length ∧
      ∀ (k : Nat) (z : Int) (obj : List Nat × ℝ), sel[k]? = some z →
        (resolved minPtcs objs)[z.toNat]? = some obj →
        ∃ row : List ShapeEntry, res[k]? = some row ∧ row.length = wantedColumns katz whole ∧
        (NotCrossing box (particlesOf xyz masses obj.1) →
        ∃ sub, sub.Sublist (particlesOf xyz masses obj.1) ∧ sub ≠ [] ∧
          (center = .com → sub = particlesOf xyz masses obj.1) ∧
          shapeCentre choose limit (box * (c.inL / mpch c.h)) center ((particlesOf xyz masses obj.1).map
            (scale (c.inL / mpch c.h) (c.inM / msunh10 c.h))) = some (fun a => weightedMean sub a * (c.inL / mpch c.h)) ∧
          ∀ (b : Nat) (e : ShapeEntry), row[b]? = some e →
            Answers (task katz sol (particlesOf xyz masses obj.1) (weightedMean sub)
              (wantedVolume katz whole obj.2 (6 * mpch c.h / c.inL) b)) c.inL c'.outL e) := by
  have hl := mpch_pos hc.h
  have hms := msunh10_pos hc.h
  have hfp : 0 < c.inL / mpch c.h := div_pos hc.inL hl
  have hgp : 0 < c.inM / msunh10 c.h := div_pos hc.inM hms
  rcases shape_rows c c' xyz masses box objs minPtcs hmin center hs sol choose limit o ho katz whole
    sel hsel out hrun with h | ⟨rows, hrlen, hout, hrows⟩
  · exact .inl h
  · right
    set f := c.inL / mpch c.h with hf
    set g := c.inM / msunh10 c.h with hg
    have hLpos : 0 < box * f := mul_pos hs.box_pos hfp
    set st := katz.settings sol (box * f) with hst
    have hmargin : 6 * mpch c.h / c.inL * f = 6 := by
      rw [hf]
      have := hc.inL.ne'
      field_simp
    have hcols : columns st (kindOf whole) = wantedColumns katz whole := by
      cases whole <;> rfl
    -- what is known of one object
    have hobject : ∀ (k : Nat) (z : Int) (obj : List Nat × ℝ), sel[k]? = some z →
        (resolved minPtcs objs)[z.toNat]? = some obj →
        (∃ ms, rows[k]? = some (some ms) ∧ ms.length = wantedColumns katz whole ∧
          (NotCrossing box (particlesOf xyz masses obj.1) →
          ∃ sub, sub.Sublist (particlesOf xyz masses obj.1) ∧ sub ≠ [] ∧
          (center = .com → sub = particlesOf xyz masses obj.1) ∧
          shapeCentre choose limit (box * f) center ((particlesOf xyz masses obj.1).map (scale f g)) =
            some (fun a => weightedMean sub a * f) ∧
          ∀ (b : Nat) (m : Morph), ms[b]? = some m →
            Answers (task katz sol (particlesOf xyz masses obj.1) (weightedMean sub)
              (wantedVolume katz whole obj.2 (6 * mpch c.h / c.inL) b)) c.inL c'.outL
              (entryOf (mpch c'.h / c'.outL) m))) ∨
        (rows[k]? = some none ∧ (NotCrossing box (particlesOf xyz masses obj.1) →
          ∃ sub, sub.Sublist (particlesOf xyz masses obj.1) ∧ sub ≠ [] ∧
          (center = .com → sub = particlesOf xyz masses obj.1) ∧
          shapeCentre choose limit (box * f) center ((particlesOf xyz masses obj.1).map (scale f g)) =
            some (fun a => weightedMean sub a * f) ∧
          ∃ b, b < wantedColumns katz whole ∧ Degenerate (task katz sol (particlesOf xyz masses obj.1)
            (weightedMean sub) (wantedVolume katz whole obj.2 (6 * mpch c.h / c.inL) b)))) := by
      intro k z obj hk hobj
      obtain ⟨hpne, v, hcv, hrow⟩ := hrows k z obj hk hobj
      have hob : obj ∈ objs := List.mem_of_mem_filter (List.mem_of_getElem? hobj)
      have hR := hr200 obj hob
      have hmpos : ∀ p ∈ (particlesOf xyz masses obj.1).map (scale f g), 0 < p.mass := by
        intro p hp
        obtain ⟨q, hq, rfl⟩ := List.mem_map.1 hp
        exact mul_pos (hs.masses_pos _ (mem_particlesOf hq).2) hgp
      -- the centre, if the object does not cross a face
      have hcentre : NotCrossing box (particlesOf xyz masses obj.1) →
          ∃ sub, sub.Sublist (particlesOf xyz masses obj.1) ∧ sub ≠ [] ∧
            (center = .com → sub = particlesOf xyz masses obj.1) ∧
            v = fun a => weightedMean sub a * f := by
        intro hnc
        have hnc' := notCrossing_scale box f g hfp _ hnc
        have hchk : ∃ j ∈ choose ((particlesOf xyz masses obj.1).map (scale f g)).length,
            j < ((particlesOf xyz masses obj.1).map (scale f g)).length := by
          refine hch _ ?_
          simpa [List.length_pos_iff] using hpne
        obtain ⟨sub, hsub1, hsub2, hsub3, rfl⟩ := shapeCentre_mean choose limit (box * f) hLpos center _
          (by simpa using hpne) hmpos v hcv
        rw [unwrapped_of_notCrossing choose (box * f) hLpos _ hchk hnc'] at hsub1 hsub3
        obtain ⟨sub', hsub', rfl⟩ := List.sublist_map_iff.1 hsub1
        refine ⟨sub', hsub', by simpa using hsub2, ?_, ?_⟩
        · intro hcom
          have := hsub3 hcom
          have hinj : Function.Injective (scale f g) := by
            intro p q hpq
            have h2 := congrArg (scale f⁻¹ g⁻¹) hpq
            rwa [scale_scale, scale_scale, mul_inv_cancel₀ hfp.ne', mul_inv_cancel₀ hgp.ne', scale_one,
              scale_one] at h2
          exact hinj.list_map this
        · funext a; exact weightedMean_scale f g hgp.ne' sub' a
      have hpp : NotCrossing box (particlesOf xyz masses obj.1) →
          positionPts st ⟨((particlesOf xyz masses obj.1).map (scale f g)).map
            fun p => ⟨p.pos, 0, p.mass⟩, v, obj.2 * f⟩ =
          ((particlesOf xyz masses obj.1).map (scale f g)).map fun p => (⟨p.pos, p.pos, p.mass⟩ : Pt) :=
        fun hnc => positionPts_of_notCrossing st hLpos _ v _ (notCrossing_scale box f g hfp _ hnc)
      rcases aloneShapes_outcome st whole ⟨((particlesOf xyz masses obj.1).map (scale f g)).map
          fun p => ⟨p.pos, 0, p.mass⟩, v, obj.2 * f⟩ hsol (positionPts_mass st _ (by
            intro p hp
            obtain ⟨q, hq, rfl⟩ := List.mem_map.1 hp
            exact hmpos q hq)) htol (mul_pos hR hfp).ne' with ⟨ms, hms1, hms2, hms3⟩ | ⟨hnone, b, hb, hdeg⟩
      · left
        refine ⟨ms, by rw [hrow, hms1], by rw [hms2, hcols], ?_⟩
        intro hnc
        obtain ⟨sub, h1, h2, h3, hv⟩ := hcentre hnc
        refine ⟨sub, h1, h2, h3, by rw [hcv, hv], ?_⟩
        intro b m hbm
        have hblt : b < wantedColumns katz whole := by
          rw [← hcols, ← hms2]; exact (List.getElem?_eq_some_iff.1 hbm).1
        have hthis := hms3 b m hbm
        rw [hpp hnc] at hthis
        simp only [hv] at hthis
        rw [hst, task_scale katz sol f g (box * f) _ (weightedMean sub) whole obj.2
          (6 * mpch c.h / c.inL) hmargin b] at hthis
        rcases hthis with hcl | ⟨rfl, hun⟩
        · right
          obtain ⟨hd, hcl⟩ := classified_scale f g hfp hgp _ m hcl
          set cfg := task katz sol (particlesOf xyz masses obj.1) (weightedMean sub)
            (wantedVolume katz whole obj.2 (6 * mpch c.h / c.inL) b) with hcfg
          have hdpos : 0 < cfg.d := by
            show 0 < (wantedVolume katz whole obj.2 (6 * mpch c.h / c.inL) b).1
            unfold wantedVolume
            cases whole with
            | true =>
              simp only [if_true]
              have := hc.inL
              positivity
            | false =>
              simp only [Bool.false_eq_true, if_false]
              have hblt : b < katz.radii.length := hblt
              rw [List.getElem?_eq_getElem hblt]
              exact mul_pos hR (hradii _ (List.getElem_mem hblt))
          have hmd : m.d ≠ 0 := by rw [hd]; exact (mul_pos hdpos hfp).ne'
          have hqs : m.q ≠ 0 ∧ m.s ≠ 0 := by
            obtain ⟨n, e, e', -, -, -, ⟨-, a, b', c'', hcp, hcb, hba, eq, es, -⟩, -, hm⟩ := hcl
            have h1 := congrArg Morph.q hm
            have h2 := congrArg Morph.s hm
            simp only at h1 h2
            have ha : 0 < a := by linarith
            have hb : 0 < b' := by linarith
            rw [h1, h2, eq, es]
            exact ⟨(div_pos hb ha).ne', (div_pos hcp ha).ne'⟩
          refine ⟨{ m with d := cfg.d }, m.d * (mpch c'.h / c'.outL), hcl, ?_, ?_, ?_, ?_, ?_, ?_⟩
          · simp [entryOf, report, nanZero, hqs.1]
          · simp [entryOf, report, nanZero, hqs.1]
          · simp [entryOf, report, nanZero, hqs.2]
          · simp [entryOf, report, nanZero, hmd]
          · rw [hd, hf, hh]
            have h1 := hc'.outL.ne'
            field_simp
          · intro a
            exact ⟨rfl, rfl, rfl⟩
        · left
          refine ⟨?_, ?_, ?_, ?_, ?_, ?_⟩
          · simp [entryOf, report, nanZero, Morph.zero]
          · simp [entryOf, report, nanZero, Morph.zero]
          · simp [entryOf, report, nanZero, Morph.zero]
          · simp [entryOf, report, nanZero, Morph.zero]
          · intro a; simp [entryOf, report, nanZero, Morph.zero]
          · refine hun.imp (unclassifiable_scale f g hfp hgp _) ?_
            intro hsp p hp p' hp'
            have := localSpread_zero _ hsp
            obtain ⟨x, hx, rfl⟩ := List.mem_map.1 hp
            obtain ⟨x', hx', rfl⟩ := List.mem_map.1 hp'
            have h4 := this _ (List.mem_map_of_mem (List.mem_map_of_mem hx)) _
              (List.mem_map_of_mem (List.mem_map_of_mem hx'))
            funext i
            exact mul_right_cancel₀ hfp.ne' (congrFun h4 i)
      · right
        refine ⟨by rw [hrow, hnone], ?_⟩
        intro hnc
        obtain ⟨sub, h1, h2, h3, hv⟩ := hcentre hnc
        refine ⟨sub, h1, h2, h3, by rw [hcv, hv], b, by rw [← hcols]; exact hb, ?_⟩
        rw [hpp hnc] at hdeg
        simp only [hv] at hdeg
        rw [hst, task_scale katz sol f g (box * f) _ (weightedMean sub) whole obj.2
          (6 * mpch c.h / c.inL) hmargin b] at hdeg
        exact degenerate_scale f g hfp hgp _ hdeg
    rcases hout with ⟨rfl, k, hk⟩ | ⟨res, rfl, hlen, hres⟩
    · left
      have hklt : k < sel.length := by rw [← hrlen]; exact (List.getElem?_eq_some_iff.1 hk).1
      have hz : sel[k]? = some sel[k] := List.getElem?_eq_getElem hklt
      have hzr := hsel.2.2 _ (List.getElem_mem hklt)
      have hob : (resolved minPtcs objs)[sel[k].toNat]? =
          some ((resolved minPtcs objs)[sel[k].toNat]'(by omega)) := List.getElem?_eq_getElem (by omega)
      refine ⟨rfl, k, _, _, hz, hob, ?_⟩
      rcases hobject k _ _ hz hob with ⟨ms, h1, -⟩ | ⟨-, h2⟩
      · rw [hk] at h1; cases h1
      · exact h2
    · right
      refine ⟨res, rfl, hlen, ?_⟩
      intro k z obj hk hobj
      rcases hobject k z obj hk hobj with ⟨ms, h1, h2, h3⟩ | ⟨h1, -⟩
      · obtain ⟨ms', e, h4⟩ := hres k _ h1
        obtain rfl := Option.some.inj e
        refine ⟨_, h4, by rw [List.length_map, h2], ?_⟩
        intro hnc
        obtain ⟨sub, g1, g2, g3, g5, g4⟩ := h3 hnc
        refine ⟨sub, g1, g2, g3, g5, ?_⟩
        intro b e hb
        rw [List.getElem?_map] at hb
        obtain ⟨m, hm, rfl⟩ := Option.map_eq_some_iff.1 hb
        exact g4 b m hm
      · obtain ⟨ms', e, -⟩ := hres k _ h1
        cases e

/-- C106 (partial). Take sensible data, make an object of it and ask for local or global shapes of a good
selection (without stored catalogue).  Whatever the schedule of the parallel loop, the reply has one row
for each selected object, in the order of the selection, with one entry for each radius; and for an
object which does not cross a face of the box each entry is the answer to the shape task for exactly the
particles of that object, with positions, masses, R200 as they were handed in, around the mean position
of its particles (all for `CENTER = 'com'`, some for `'mode'`): either the shape found, `d` being that
length as a physical quantity, or NaN for a reason.  If the call raises instead, mode finding exceeded the
recursion limit or the task of some selected object is degenerate (provided it does not cross a face).
Missing: objects crossing a face of the box (C24); vanishing components of axes are NaN (C40). -/
theorem C106_shapes_partial (c c' : Cfg ℝ) (hc : c.Pos) (hc' : c'.Pos) (hh : c'.h = c.h)
    (xyz : List (Vec ℝ)) (masses : List ℝ) (box : ℝ) (objs : List (List Nat × ℝ)) (minPtcs : Int)
    (hmin : 1 ≤ minPtcs) (center : Center) (hs : Sensible xyz masses box objs)
    (hr200 : ∀ o ∈ objs, 0 < o.2) (sol : Solver) (hsol : GoodSolver sol)
    (choose : Nat → List Nat) (hch : ∀ n, 0 < n → ∃ j ∈ choose n, j < n) (limit : Nat) (o : Obj)
    (ho : construct c ⟨xyz, masses, .nested (objs.map Prod.fst), .array (objs.map Prod.snd), box,
      minPtcs, center⟩ = .ok o)
    (katz : Katz) (htol : katz.tol < 1) (hradii : ∀ r ∈ katz.radii, 0 < r) (whole : Bool)
    (sel : List Int) (hsel : GoodSelection sel (resolved minPtcs objs).length)
    (out : Except ShapeErr (List (List ShapeEntry)))
    (hrun : GetShapeCat c' sol choose limit o katz whole sel out) :
    (out = .error (.api .recursion) ∧ center = .mode) ∨
    (out = .error .zeroDivision ∧ ∃ (k : Nat) (z : Int) (obj : List Nat × ℝ), sel[k]? = some z ∧
      (resolved minPtcs objs)[z.toNat]? = some obj ∧
      (NotCrossing box (particlesOf xyz masses obj.1) →
        ∃ sub, sub.Sublist (particlesOf xyz masses obj.1) ∧ sub ≠ [] ∧
          (center = .com → sub = particlesOf xyz masses obj.1) ∧
          ∃ b, b < wantedColumns katz whole ∧ Degenerate (task katz sol (particlesOf xyz masses obj.1)
            (weightedMean sub) (wantedVolume katz whole obj.2 (6 * mpch c.h / c.inL) b)))) ∨
    ∃ res, out = .ok res ∧ res.length = sel.length ∧
      ∀ (k : Nat) (z : Int) (obj : List Nat × ℝ), sel[k]? = some z →
        (resolved minPtcs objs)[z.toNat]? = some obj →
        ∃ row : List ShapeEntry, res[k]? = some row ∧ row.length = wantedColumns katz whole ∧
        (NotCrossing box (particlesOf xyz masses obj.1) →
        ∃ sub, sub.Sublist (particlesOf xyz masses obj.1) ∧ sub ≠ [] ∧
          (center = .com → sub = particlesOf xyz masses obj.1) ∧
          ∀ (b : Nat) (e : ShapeEntry), row[b]? = some e →
            Answers (task katz sol (particlesOf xyz masses obj.1) (weightedMean sub)
              (wantedVolume katz whole obj.2 (6 * mpch c.h / c.inL) b)) c.inL c'.outL e) := by
  rcases shapes_core c c' hc hc' hh xyz masses box objs minPtcs hmin center hs hr200 sol hsol choose hch limit o ho katz htol
    hradii whole sel hsel out hrun with h | ⟨h, k, z, obj, h1, h2, h3⟩ | ⟨res, h1, h2, h3⟩
  · exact .inl h
  · refine .inr (.inl ⟨h, k, z, obj, h1, h2, fun hnc => ?_⟩)
    obtain ⟨sub, f1, f2, f3, -, f4⟩ := h3 hnc
    exact ⟨sub, f1, f2, f3, f4⟩
  · refine .inr (.inr ⟨res, h1, h2, ?_⟩)
    intro k z obj hk hobj
    obtain ⟨row, g1, g2, g3⟩ := h3 k z obj hk hobj
    refine ⟨row, g1, g2, fun hnc => ?_⟩
    obtain ⟨sub, f1, f2, f3, -, f4⟩ := g3 hnc
    exact ⟨sub, f1, f2, f3, f4⟩

/-- The call of C106 has an outcome. -/
theorem C106_outcome_exists (c c' : Cfg ℝ)
    (xyz : List (Vec ℝ)) (masses : List ℝ) (box : ℝ) (objs : List (List Nat × ℝ)) (minPtcs : Int)
    (hmin : 1 ≤ minPtcs) (center : Center) (hs : Sensible xyz masses box objs) (sol : Solver)
    (choose : Nat → List Nat) (limit : Nat) (o : Obj)
    (ho : construct c ⟨xyz, masses, .nested (objs.map Prod.fst), .array (objs.map Prod.snd), box,
      minPtcs, center⟩ = .ok o)
    (katz : Katz) (whole : Bool)
    (sel : List Int) (hsel : GoodSelection sel (resolved minPtcs objs).length) :
    ∃ out, GetShapeCat c' sol choose limit o katz whole sel out := by
  rw [construct_eq c xyz masses box objs minPtcs center hs.lengths hs.objects] at ho
  have ho := Except.ok.inj ho
  obtain ⟨parts, hsp, -, -⟩ := selected _ _ xyz masses box objs minPtcs hmin hs o
    (by rw [← ho]) (by rw [← ho]) (by rw [← ho]) (by rw [← ho]) sel hsel
  cases hcen : parts.mapM (shapeCentre choose limit o.box o.center) with
  | none => exact ⟨_, .diverges parts hsp hcen⟩
  | some centers =>
    obtain ⟨r200, hr⟩ : ∃ r, fancy o.r200 (sel.map Int.toNat) = some r := by
      apply mapM_exists
      intro i hi
      obtain ⟨z, hz, rfl⟩ := List.mem_map.1 hi
      have := hsel.2.2 z hz
      refine ⟨_, List.getElem?_eq_getElem ?_⟩
      rw [← ho]
      simp only [List.length_map]
      omega
    exact ⟨_, .looped parts hsp centers hcen r200 hr _ rfl (parts.map List.length).sum
      (fun ps hps => List.single_le_sum (by simp) _ (List.mem_map_of_mem hps)) _
      (Execution.oneThread _ _ List.nodup_range 0) _ _ (internalLM_eq c') _ rfl⟩

theorem pureRun_move (fuel : Nat) (cfg : Config) (t u : Vec ℝ) (morph : Morph) :
    pureRun fuel (move t u cfg) morph = pureRun fuel cfg morph := by
  have hsame : Same (fun p => { p with x := p.x + t, src := p.src + u }) 1 cfg (move t u cfg) :=
    ⟨List.Perm.refl _, fun p _ i => by simp [move], fun p _ i => by simp [move], fun p _ => by simp,
      one_ne_zero, rfl, rfl, rfl, rfl, rfl, rfl, rfl⟩
  exact hsame.run fuel morph

/-- Six particles of mass 1 at distances 3, 2, 1 from (5, 5, 5) along the axes. -/
noncomputable def crossXyz : List (Vec ℝ) :=
  [![8, 5, 5], ![2, 5, 5], ![5, 7, 5], ![5, 3, 5], ![5, 5, 6], ![5, 5, 4]]

/-- A concrete case: in any box of size 20 or more, a cross handed in as an object with R200 = 100 (in Mpc/h and 10^10 Msun/h) has, at
radius R200, the axis ratios 2/3 and 1/3, and the two vanishing components of its axes are NaN; and
this is what every run of the call returns. -/
theorem C106_cross (L : ℝ) (hL : 20 ≤ L) (h : ℝ) (hh : 0 < h) (sol : Solver) (hsol : GoodSolver sol)
    (choose : Nat → List Nat) (hch : ∀ n, 0 < n → ∃ j ∈ choose n, j < n) (limit : Nat) (o : Obj)
    (ho : construct ⟨mpch h, msunh10 h, 1, h, mpch h, msunh10 h, 1⟩ ⟨crossXyz, [1, 1, 1, 1, 1, 1],
      .nested [[0, 1, 2, 3, 4, 5]], .array [100], L, 6, .com⟩ = .ok o)
    (out : Except ShapeErr (List (List ShapeEntry)))
    (hrun : GetShapeCat ⟨mpch h, msunh10 h, 1, h, mpch h, msunh10 h, 1⟩ sol choose limit o
      ⟨[1], 1 / 10, 100, 6, false, false⟩ false [0] out) :
    ∃ e : ShapeEntry, out = .ok [[e]] ∧ e.conv = true ∧ e.d = some 100 ∧ e.q = some (2 / 3) ∧
      e.s = some (1 / 3) ∧ e.major 1 = none := by
  have hl := mpch_pos hh
  have hms := msunh10_pos hh
  have hs : Sensible crossXyz [1, 1, 1, 1, 1, 1] L [([0, 1, 2, 3, 4, 5], 100)] := by
    refine ⟨rfl, by linarith, ?_, ?_, by simp, ?_⟩
    · intro x hx a
      simp only [crossXyz, List.mem_cons, List.not_mem_nil, or_false] at hx
      rcases hx with rfl | rfl | rfl | rfl | rfl | rfl <;> fin_cases a <;> norm_num <;> linarith
    · intro m hm
      simp only [List.mem_cons, List.not_mem_nil, or_false, or_self] at hm
      rw [hm]; norm_num
    · intro o ho i hi
      simp only [List.mem_singleton] at ho
      subst ho
      simp only [List.mem_cons, List.not_mem_nil, or_false] at hi
      simp only [crossXyz, List.length_cons, List.length_nil]
      omega
  have hres : resolved 6 [([0, 1, 2, 3, 4, 5], (100 : ℝ))] = [([0, 1, 2, 3, 4, 5], 100)] := by
    simp [resolved]
  have hps : particlesOf crossXyz [1, 1, 1, 1, 1, 1] [0, 1, 2, 3, 4, 5] =
      [⟨![8, 5, 5], 1⟩, ⟨![2, 5, 5], 1⟩, ⟨![5, 7, 5], 1⟩, ⟨![5, 3, 5], 1⟩, ⟨![5, 5, 6], 1⟩,
        ⟨![5, 5, 4], 1⟩] := by
    simp [particlesOf, crossXyz]
  have hnc : NotCrossing L (particlesOf crossXyz [1, 1, 1, 1, 1, 1] [0, 1, 2, 3, 4, 5]) := by
    rw [hps]
    intro p hp q hq a
    have hb : ∀ p ∈ ([⟨![8, 5, 5], 1⟩, ⟨![2, 5, 5], 1⟩, ⟨![5, 7, 5], 1⟩, ⟨![5, 3, 5], 1⟩,
        ⟨![5, 5, 6], 1⟩, ⟨![5, 5, 4], 1⟩] : List (Particle ℝ)), ∀ a, 2 ≤ p.pos a ∧ p.pos a ≤ 8 := by
      intro p hp a
      simp only [List.mem_cons, List.not_mem_nil, or_false] at hp
      rcases hp with rfl | rfl | rfl | rfl | rfl | rfl <;> fin_cases a <;> norm_num
    have h1 := hb p hp a
    have h2 := hb q hq a
    rw [abs_le]
    constructor <;> linarith
  have hsel : GoodSelection [0] (resolved 6 [([0, 1, 2, 3, 4, 5], (100 : ℝ))]).length := by
    rw [hres]
    refine ⟨by simp, by simp, ?_⟩
    intro z hz
    simp only [List.mem_singleton] at hz
    subst hz
    simp
  rcases shape_rows _ _ _ _ _ _ 6 (by norm_num) .com hs sol choose limit o ho _ false [0] hsel out hrun with
    ⟨-, h⟩ | ⟨rows, hlen, hout, hrows⟩
  · cases h
  obtain ⟨-, v, hv, hrow⟩ := hrows 0 0 ([0, 1, 2, 3, 4, 5], 100) rfl (by rw [hres]; rfl)
  simp only [div_self hl.ne', div_self hms.ne', mul_one] at hv hrow
  have hid : (scale 1 1) = id := by funext p; exact scale_one p
  rw [hid, List.map_id] at hv hrow
  have hv5 : v = ![5, 5, 5] := by
    unfold shapeCentre at hv
    have := Option.some.inj hv
    rw [← this]
    have hmp : ∀ p ∈ particlesOf crossXyz [1, 1, 1, 1, 1, 1] [0, 1, 2, 3, 4, 5], 0 < p.mass := by
      intro p hp
      exact hs.masses_pos _ (mem_particlesOf hp).2
    have hune := unwrapped_of_notCrossing choose L (by linarith)
      (particlesOf crossXyz [1, 1, 1, 1, 1, 1] [0, 1, 2, 3, 4, 5]) (hch _ (by rw [hps]; simp)) hnc
    change calcCoM _ (unwrapped choose L _) = _
    rw [hune, calcCoM_eq _ _ (totalMass_pos _ (by rw [hps]; simp) hmp).ne', hps]
    funext a
    fin_cases a <;> norm_num [weightedMean, totalMass]
  subst hv5
  set katz : Katz := ⟨[1], 1 / 10, 100, 6, false, false⟩ with hkatz
  have hpp := positionPts_of_notCrossing (katz.settings sol L) (show (0 : ℝ) < L by linarith) _
    ![5, 5, 5] 100 hnc
  obtain ⟨x, y, z, hx, hy, hz, hcross⟩ := cross_run sol hsol { Morph.zero with d := 100 }
  have halone : aloneShapes (katz.settings sol L) (kindOf false)
      ⟨(particlesOf crossXyz [1, 1, 1, 1, 1, 1] [0, 1, 2, 3, 4, 5]).map fun p => ⟨p.pos, 0, p.mass⟩,
        ![5, 5, 5], 100⟩ = some [⟨100, 2 / 3, 1 / 3, ![x, 0, 0], ![0, y, 0], ![0, 0, z]⟩] := by
    change pureLocal _ (positionPts _ _) _ _ _ _ = _
    rw [hpp]
    unfold pureLocal
    have hsp : localSpread ((particlesOf crossXyz [1, 1, 1, 1, 1, 1] [0, 1, 2, 3, 4, 5]).map
        fun p => (⟨p.pos, p.pos, p.mass⟩ : Pt)) ≠ 0 := by
      intro h0
      have := localSpread_zero _ h0
      rw [hps] at this
      have := this ⟨![8, 5, 5], ![8, 5, 5], 1⟩ (by simp) ⟨![2, 5, 5], ![2, 5, 5], 1⟩ (by simp)
      have := congrFun this 0
      norm_num at this
    rw [if_neg hsp, if_neg (show (100 : ℝ) ≠ 0 by norm_num), hps]
    have hshell : shellAt (katz.settings sol L) 100 0 = (100, none) := by
      simp [shellAt, Katz.settings, hkatz]
    have hmove : (katz.settings sol L).config ([⟨![8, 5, 5], 1⟩, ⟨![2, 5, 5], 1⟩, ⟨![5, 7, 5], 1⟩,
        ⟨![5, 3, 5], 1⟩, ⟨![5, 5, 6], 1⟩, ⟨![5, 5, 4], 1⟩].map
        fun p : Particle ℝ => (⟨p.pos, p.pos, p.mass⟩ : Pt)) ![5, 5, 5] ![5, 5, 5] 100 none =
        move ![5, 5, 5] ![5, 5, 5] (crossCfg sol) := by
      simp only [Settings.config, Katz.settings, hkatz, move, crossCfg, crossPts, List.map_cons, List.map_nil]
      norm_num
    have hone : pureOne (move ![5, 5, 5] ![5, 5, 5] (crossCfg sol)) { Morph.zero with d := 100 } =
        some ⟨100, 2 / 3, 1 / 3, ![x, 0, 0], ![0, y, 0], ![0, 0, z]⟩ := by
      unfold pureOne
      rw [pureRun_move, hcross _ (by simp only [move, crossCfg]; decide)]
      rfl
    have hrange : List.range 1 = [0] := rfl
    show pureLoop _ _ _ _ ((List.range 1).map _) = _
    rw [hrange]
    unfold pureLoop
    simp only [List.map_cons, List.map_nil, hshell, List.mapM_cons, List.mapM_nil]
    have hmove' := hmove
    simp only [List.map_cons, List.map_nil] at hmove'
    rw [hmove', hone]
    rfl
  rw [halone] at hrow
  rcases hout with ⟨-, k, hk⟩ | ⟨res, rfl, hlen', hres'⟩
  · have : k = 0 := by
      have := (List.getElem?_eq_some_iff.1 hk).1
      simp only [List.length_singleton] at hlen
      omega
    subst this
    rw [hk] at hrow; cases hrow
  · obtain ⟨ms, hms', hresk⟩ := hres' 0 _ hrow
    obtain rfl := Option.some.inj hms'
    refine ⟨entryOf (mpch h / mpch h) ⟨100, 2 / 3, 1 / 3, ![x, 0, 0], ![0, y, 0], ![0, 0, z]⟩, ?_, ?_,
      ?_, ?_, ?_, ?_⟩
    · match res, hlen' with
      | [r], _ =>
        have hr : r = _ := Option.some.inj hresk
        rw [hr]; rfl
    · norm_num [entryOf, report, nanZero]
    · norm_num [entryOf, report, nanZero, div_self hl.ne']
    · norm_num [entryOf, report, nanZero]
    · norm_num [entryOf, report, nanZero]
    · simp [entryOf, report, nanZero]

/-- Such an object exists. -/
example (c : Cfg ℝ) : ∃ o, construct c ⟨crossXyz, [1, 1, 1, 1, 1, 1],
    .nested [[0, 1, 2, 3, 4, 5]], .array [100], 1000, 6, .com⟩ = .ok o :=
  ⟨_, construct_eq c crossXyz [1, 1, 1, 1, 1, 1] 1000 [([0, 1, 2, 3, 4, 5], 100)] 6 .com rfl (by simp)⟩

/-- The cross moved by -5 along the third axis of a periodic box of 1000. -/
noncomputable def movedXyz : List (Vec ℝ) :=
  [![8, 5, 0], ![2, 5, 0], ![5, 7, 0], ![5, 3, 0], ![5, 5, 1], ![5, 5, 999]]

theorem movedXyz_images : List.Forall₂ (fun x y : Vec ℝ => ∀ a, ∃ n : Int,
    y a = x a + (![0, 0, -5] : Vec ℝ) a + n * 1000) crossXyz movedXyz := by
  unfold crossXyz movedXyz
  refine .cons ?_ (.cons ?_ (.cons ?_ (.cons ?_ (.cons ?_ (.cons ?_ .nil)))))
  all_goals intro a; fin_cases a
  all_goals first
    | (refine ⟨0, ?_⟩; norm_num; done)
    | (refine ⟨1, ?_⟩; norm_num; done)

/-- C106 is false for objects crossing a face of the box: the cross of `C106_cross`, moved as a whole
in the periodic box (every particle is an image of the moved particle), gets no shape at all, whatever
the centre. -/
theorem C106_crossing_refuted (h : ℝ) (hh : 0 < h) (sol : Solver)
    (choose : Nat → List Nat) (limit : Nat) (o : Obj)
    (ho : construct ⟨mpch h, msunh10 h, 1, h, mpch h, msunh10 h, 1⟩ ⟨movedXyz, [1, 1, 1, 1, 1, 1],
      .nested [[0, 1, 2, 3, 4, 5]], .array [100], 1000, 6, .com⟩ = .ok o)
    (out : Except ShapeErr (List (List ShapeEntry)))
    (hrun : GetShapeCat ⟨mpch h, msunh10 h, 1, h, mpch h, msunh10 h, 1⟩ sol choose limit o
      ⟨[1], 1 / 10, 100, 6, false, false⟩ false [0] out) :
    ∃ e : ShapeEntry, out = .ok [[e]] ∧ e.conv = false ∧ e.d = none ∧ e.q = none ∧ e.s = none := by
  have hl := mpch_pos hh
  have hms := msunh10_pos hh
  have hs : Sensible movedXyz [1, 1, 1, 1, 1, 1] 1000 [([0, 1, 2, 3, 4, 5], 100)] := by
    refine ⟨rfl, by norm_num, ?_, ?_, by simp, ?_⟩
    · intro x hx a
      simp only [movedXyz, List.mem_cons, List.not_mem_nil, or_false] at hx
      rcases hx with rfl | rfl | rfl | rfl | rfl | rfl <;> fin_cases a <;> norm_num
    · intro m hm
      simp only [List.mem_cons, List.not_mem_nil, or_false, or_self] at hm
      rw [hm]; norm_num
    · intro o ho i hi
      simp only [List.mem_singleton] at ho
      subst ho
      simp only [List.mem_cons, List.not_mem_nil, or_false] at hi
      simp only [movedXyz, List.length_cons, List.length_nil]
      omega
  have hres : resolved 6 [([0, 1, 2, 3, 4, 5], (100 : ℝ))] = [([0, 1, 2, 3, 4, 5], 100)] := by
    simp [resolved]
  have hps : particlesOf movedXyz [1, 1, 1, 1, 1, 1] [0, 1, 2, 3, 4, 5] =
      [⟨![8, 5, 0], 1⟩, ⟨![2, 5, 0], 1⟩, ⟨![5, 7, 0], 1⟩, ⟨![5, 3, 0], 1⟩, ⟨![5, 5, 1], 1⟩,
        ⟨![5, 5, 999], 1⟩] := by
    simp [particlesOf, movedXyz]
  have hsel : GoodSelection [0] (resolved 6 [([0, 1, 2, 3, 4, 5], (100 : ℝ))]).length := by
    rw [hres]
    exact ⟨by simp, by simp, by simp⟩
  rcases shape_rows _ _ _ _ _ _ 6 (by norm_num) .com hs sol choose limit o ho _ false [0] hsel out hrun with
    ⟨-, h⟩ | ⟨rows, hlen, hout, hrows⟩
  · cases h
  obtain ⟨-, v, hv, hrow⟩ := hrows 0 0 ([0, 1, 2, 3, 4, 5], 100) rfl (by rw [hres]; rfl)
  simp only [div_self hl.ne', div_self hms.ne', mul_one] at hv hrow
  have hid : (scale 1 1) = id := by funext p; exact scale_one p
  rw [hid, List.map_id, hps] at hrow
  clear hv
  set katz : Katz := ⟨[1], 1 / 10, 100, 6, false, false⟩ with hkatz
  set pts : List Pt := [⟨![8, 5, 0], ![8, 5, 0], 1⟩, ⟨![2, 5, 0], ![2, 5, 0], 1⟩,
    ⟨![5, 7, 0], ![5, 7, 0], 1⟩, ⟨![5, 3, 0], ![5, 3, 0], 1⟩, ⟨![5, 5, 1], ![5, 5, 1], 1⟩,
    ⟨![5, 5, 999], ![5, 5, 999], 1⟩] with hpts
  have hpp : positionPts (katz.settings sol 1000) ⟨[⟨![8, 5, 0], 1⟩, ⟨![2, 5, 0], 1⟩, ⟨![5, 7, 0], 1⟩,
      ⟨![5, 3, 0], 1⟩, ⟨![5, 5, 1], 1⟩, ⟨![5, 5, 999], 1⟩].map fun p : Particle ℝ => ⟨p.pos, 0, p.mass⟩,
      v, 100⟩ = pts := by
    have hcy : cyRespectPBCNoRef [![8, 5, 0], ![2, 5, 0], ![5, 7, 0], ![5, 3, 0], ![5, 5, 1],
        ![5, 5, (999 : ℝ)]] 1000 = [![8, 5, 0], ![2, 5, 0], ![5, 7, 0], ![5, 3, 0], ![5, 5, 1],
        ![5, 5, 999]] := by
      apply C24_images_partial _ _ _ (by norm_num)
      intro x hx
      simp only [List.mem_cons, List.not_mem_nil, or_false] at hx
      rcases hx with rfl | rfl | rfl | rfl | rfl <;> norm_num [abs_le]
    unfold positionPts Shapes.unwrapped
    simp only [List.map_cons, List.map_nil]
    have : (katz.settings sol 1000).box = 1000 := rfl
    rw [this, hcy]
    rfl
  have halone : aloneShapes (katz.settings sol 1000) (kindOf false)
      ⟨[⟨![8, 5, 0], 1⟩, ⟨![2, 5, 0], 1⟩, ⟨![5, 7, 0], 1⟩, ⟨![5, 3, 0], 1⟩, ⟨![5, 5, 1], 1⟩,
        ⟨![5, 5, 999], 1⟩].map fun p : Particle ℝ => ⟨p.pos, 0, p.mass⟩, v, 100⟩ = some [.zero] := by
    change pureLocal _ (positionPts _ _) _ _ _ _ = _
    rw [hpp]
    unfold pureLocal
    have hsp : localSpread pts ≠ 0 := by
      intro h0
      have := localSpread_zero _ h0
      have := this ⟨![8, 5, 0], ![8, 5, 0], 1⟩ (by simp [hpts]) ⟨![2, 5, 0], ![2, 5, 0], 1⟩ (by simp [hpts])
      have := congrFun this 0
      norm_num at this
    rw [if_neg hsp, if_neg (show (100 : ℝ) ≠ 0 by norm_num)]
    have hshell : shellAt (katz.settings sol 1000) 100 0 = (100, none) := by
      simp [shellAt, Katz.settings, hkatz]
    have hrange : List.range 1 = [0] := rfl
    show pureLoop _ _ _ _ ((List.range 1).map _) = _
    rw [hrange]
    unfold pureLoop
    simp only [List.map_cons, List.map_nil, hshell, List.mapM_cons, List.mapM_nil]
    set cfg := (katz.settings sol 1000).config pts v v 100 none with hcfg
    have hone : pureOne cfg { Morph.zero with d := 100 } = some .zero := by
      have hnot : ¬ ∀ p ∈ pts, initialTest cfg p = true := by
        intro hall
        have h1 := hall ⟨![5, 5, 1], ![5, 5, 1], 1⟩ (by simp [hpts])
        have h2 := hall ⟨![5, 5, 999], ![5, 5, 999], 1⟩ (by simp [hpts])
        have e1 := of_decide_eq_true h1
        have e2 := of_decide_eq_true h2
        have hd : cfg.d = 100 := rfl
        simp only [hd, Binning.dist2] at e1 e2
        have c1 : (![5, 5, (1 : ℝ)] : Vec ℝ) 2 = 1 := rfl
        have c2 : (![5, 5, (999 : ℝ)] : Vec ℝ) 2 = 999 := rfl
        rw [c1] at e1
        rw [c2] at e2
        nlinarith [sq_nonneg (cfg.center 0 - (![5, 5, (1 : ℝ)] : Vec ℝ) 0),
          sq_nonneg (cfg.center 1 - (![5, 5, (1 : ℝ)] : Vec ℝ) 1),
          sq_nonneg (cfg.center 0 - (![5, 5, (999 : ℝ)] : Vec ℝ) 0),
          sq_nonneg (cfg.center 1 - (![5, 5, (999 : ℝ)] : Vec ℝ) 1),
          sq_nonneg (cfg.center 2 - 500)]
      have hcount : ((pureStart cfg { Morph.zero with d := 100 }).sel.length : Int) < 6 := by
        have hsl : (pureStart cfg { Morph.zero with d := 100 }).sel =
            (pts.filter (initialTest cfg)).map fun p => (p, radius0 cfg p) := by
          apply select_spec
          · exact List.forall₂_map_right_iff.2 (List.forall₂_same.2 fun _ _ => rfl)
          · exact List.forall₂_map_right_iff.2 (List.forall₂_same.2 fun _ _ => rfl)
        rw [hsl, List.length_map]
        have h1 : (pts.filter (initialTest cfg)).length < pts.length := by
          refine lt_of_le_of_ne (List.length_filter_le _ _) fun e => hnot ?_
          exact List.filter_eq_self.1 (List.filter_sublist.eq_of_length e)
        have h6 : pts.length = 6 := rfl
        omega
      have hstep : pureStep cfg (pureStart cfg { Morph.zero with d := 100 }) = .stop (some .zero) := by
        unfold pureStep
        have g1 : (pureStart cfg { Morph.zero with d := 100 }).err > cfg.tol :=
          show (1 : ℝ) > 1 / 10 by norm_num
        have g2 : ¬ ((pureStart cfg { Morph.zero with d := 100 }).iteration : Int) > cfg.wall :=
          show ¬ ((1 : Nat) : Int) > 100 by decide
        have g3 : ((pureStart cfg { Morph.zero with d := 100 }).sel.length : Int) < cfg.itMin := hcount
        rw [if_pos g1, if_neg g2, if_pos g3]
      unfold pureOne pureRun
      rw [loop, hstep]
      rfl
    rw [hone]
    rfl
  rw [halone] at hrow
  rcases hout with ⟨-, k, hk⟩ | ⟨res, rfl, hlen', hres'⟩
  · have : k = 0 := by
      have := (List.getElem?_eq_some_iff.1 hk).1
      simp only [List.length_singleton] at hlen
      omega
    subst this
    rw [hk] at hrow; cases hrow
  · obtain ⟨ms, hms', hresk⟩ := hres' 0 _ hrow
    obtain rfl := Option.some.inj hms'
    refine ⟨entryOf (mpch h / mpch h) .zero, ?_, ?_, ?_, ?_, ?_⟩
    · match res, hlen' with
      | [r], _ =>
        have hr : r = _ := Option.some.inj hresk
        rw [hr]; rfl
    all_goals simp [entryOf, report, nanZero, Morph.zero]

/-- Such an object exists, and the call has an outcome. -/
example (h : ℝ) (sol : Solver) (choose : Nat → List Nat) (limit : Nat) :
    ∃ o out, construct ⟨mpch h, msunh10 h, 1, h, mpch h, msunh10 h, 1⟩ ⟨movedXyz, [1, 1, 1, 1, 1, 1],
      .nested [[0, 1, 2, 3, 4, 5]], .array [100], 1000, 6, .com⟩ = .ok o ∧
    GetShapeCat ⟨mpch h, msunh10 h, 1, h, mpch h, msunh10 h, 1⟩ sol choose limit o
      ⟨[1], 1 / 10, 100, 6, false, false⟩ false [0] out := by
  have ho := construct_eq ⟨mpch h, msunh10 h, 1, h, mpch h, msunh10 h, 1⟩ movedXyz [1, 1, 1, 1, 1, 1] 1000
    [([0, 1, 2, 3, 4, 5], 100)] 6 .com rfl (by simp)
  have hs : Sensible movedXyz [1, 1, 1, 1, 1, 1] 1000 [([0, 1, 2, 3, 4, 5], 100)] := by
    refine ⟨rfl, by norm_num, ?_, by simp, by simp, ?_⟩
    · intro x hx a
      simp only [movedXyz, List.mem_cons, List.not_mem_nil, or_false] at hx
      rcases hx with rfl | rfl | rfl | rfl | rfl | rfl <;> fin_cases a <;> norm_num
    · simp [movedXyz]
  obtain ⟨out, hout⟩ := C106_outcome_exists ⟨mpch h, msunh10 h, 1, h, mpch h, msunh10 h, 1⟩
    ⟨mpch h, msunh10 h, 1, h, mpch h, msunh10 h, 1⟩ movedXyz [1, 1, 1, 1, 1, 1] 1000
    [([0, 1, 2, 3, 4, 5], 100)] 6 (by norm_num) .com hs sol choose limit _ ho
    ⟨[1], 1 / 10, 100, 6, false, false⟩ false [0] (by simp [GoodSelection, resolved])
  exact ⟨_, out, ho, hout⟩

end Verif.Api
