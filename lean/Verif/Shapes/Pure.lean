import Verif.Shapes.Model
import Verif.Binning.Lemmas

/-!
# The shape iteration without scratch memory

`pureRun` performs the same computation on lists of particles; `runAlgo_pure` shows that the
computation on scratch arrays gives the same result, whatever the arrays contain at the start.
-/

namespace Verif.Shapes

open Verif.Binning (ScanState scan)

/-- Selected particles with their ellipsoidal radius. -/
abbrev Sel := List (Pt × ℝ)

/-- One entry of the shape tensor. -/
noncomputable def pureEntry (cfg : Config) (massTot : ℝ) (sel : Sel) (i j : Fin 3) : Option ℝ :=
  sel.foldlM (fun acc pr => (tensorTerm cfg massTot pr.1 pr.2 i j).map (acc + ·)) 0

/-- The shape tensor. -/
noncomputable def pureTensor (cfg : Config) (sel : Sel) : Option Tensor := do
  let mt := (sel.map fun pr => pr.1.m).sum
  let e00 ← pureEntry cfg mt sel 0 0
  let e10 ← pureEntry cfg mt sel 1 0
  let e11 ← pureEntry cfg mt sel 1 1
  let e20 ← pureEntry cfg mt sel 2 0
  let e21 ← pureEntry cfg mt sel 2 1
  let e22 ← pureEntry cfg mt sel 2 2
  some ![![e00, e10, e20], ![e10, e11, e21], ![e20, e21, e22]]

/-- Variables of the iteration. -/
structure PState where
  q : ℝ
  s : ℝ
  err : ℝ
  iteration : Nat
  sel : Sel
  morph : Morph

/-- Keep the pairs whose test succeeded. -/
def select (pts : List Pt) (rs : List ℝ) (tests : List Bool) : Sel :=
  ((pts.zip rs).zip tests).filterMap fun x => if x.2 then some x.1 else none

/-- Body of the iteration. -/
noncomputable def pureIterate (cfg : Config) (st : PState) : Option PState := do
  let t ← pureTensor cfg st.sel
  let (qn, sn, err, major, inter, minor) ← diagonalise cfg t st.q st.s
  let princ := cfg.pts.map (toPrinc cfg major inter minor)
  let rs ← princ.mapM fun y => (ellRadius2 qn sn y).map Real.sqrt
  let tests ← princ.mapM (laterTest cfg qn sn)
  some { q := qn, s := sn, err := err, iteration := st.iteration + 1
         sel := select cfg.pts rs tests
         morph := ⟨cfg.d, qn, sn, major, inter, minor⟩ }

/-- One pass: test of the loop, its two ways of giving up, the body. -/
noncomputable def pureStep (cfg : Config) (st : PState) : Next (Option Morph) PState :=
  if st.err > cfg.tol then
    if (st.iteration : Int) > cfg.wall then .stop (some .zero)
    else if (st.sel.length : Int) < cfg.itMin then .stop (some .zero)
    else match pureIterate cfg st with
      | none => .stop none
      | some st' => .go st'
  else .stop (some st.morph)

/-- Radius of a particle before the first iteration. -/
noncomputable def radius0 (cfg : Config) (p : Pt) : ℝ :=
  Real.sqrt ((cfg.center 0 - p.x 0) ^ 2 +
    (cfg.center 1 - p.x 1) ^ 2 / 1 ^ 2 + (cfg.center 2 - p.x 2) ^ 2 / 1 ^ 2)

/-- State before the loop: a sphere. -/
noncomputable def pureStart (cfg : Config) (morph : Morph) : PState :=
  { q := 1, s := 1, err := 1, iteration := 1
    sel := select cfg.pts (cfg.pts.map (radius0 cfg)) (cfg.pts.map (initialTest cfg))
    morph := morph }

/-- The whole iteration, at most `fuel` passes. -/
noncomputable def pureRun (fuel : Nat) (cfg : Config) (morph : Morph) : Option (Option Morph) :=
  loop (pureStep cfg) fuel (pureStart cfg morph)

/-! ## Refinement -/

theorem range_map_getElem? {α : Type} (l : List α) (n : Nat) (h : n ≤ l.length) :
    (List.range n).map (fun i => l[i]?) = (l.take n).map some := by
  apply List.ext_getElem?
  intro i
  simp only [List.getElem?_map, List.getElem?_take]
  by_cases hi : i < n
  · have : l[i]? = some (l[i]'(by omega)) := List.getElem?_eq_getElem (by omega)
    rw [List.getElem?_range hi, if_pos hi, Option.map_some, this]
    rfl
  · rw [List.getElem?_eq_none (by simpa using hi), if_neg hi]; rfl

theorem range_filterMap {α β : Type} (l : List α) (g : α → Option β) :
    (List.range l.length).filterMap (fun i => l[i]?.bind g) = l.filterMap g := by
  have h := range_map_getElem? l l.length (le_refl _)
  rw [List.take_length] at h
  have : (List.range l.length).filterMap (fun i => l[i]?.bind g) =
      ((List.range l.length).map (fun i => l[i]?)).filterMap (fun x => x.bind g) := by
    rw [List.filterMap_map]; rfl
  rw [this, h, List.filterMap_map]
  rfl

theorem foldlM_some_congr {α β : Type} (l : List α) (f g : β → α → Option β) (b : β)
    (h : ∀ a ∈ l, ∀ b, f b a = g b a) : l.foldlM f b = l.foldlM g b := by
  induction l generalizing b with
  | nil => rfl
  | cons a l ih =>
    rw [List.foldlM_cons, List.foldlM_cons, h a (by simp)]
    cases g b a with
    | none => rfl
    | some c => exact ih c fun a ha => h a (by simp [ha])

theorem tensorEntry_eq (cfg : Config) (sc : Scratch) (n : Nat) (mt : ℝ) (i j : Fin 3)
    (hn : n ≤ sc.shell.length) :
    tensorEntry cfg sc n mt 0 i j =
      pureEntry cfg mt ((sc.shell.take n).filterMap (lookup cfg sc.rEll)) i j := by
  unfold tensorEntry pureEntry
  rw [List.foldlM_filterMap]
  have h := range_map_getElem? sc.shell n hn
  have e1 : (List.range n).foldlM (fun acc run =>
      addTerm cfg mt i j acc (sc.shell[run]?.bind (lookup cfg sc.rEll))) (0 : ℝ) =
      ((List.range n).map fun run => sc.shell[run]?).foldlM (fun acc x =>
        addTerm cfg mt i j acc (x.bind (lookup cfg sc.rEll))) (0 : ℝ) := by
    rw [List.foldlM_map]
  rw [e1, h, List.foldlM_map]
  apply foldlM_some_congr
  intro k _ b
  cases hk : lookup cfg sc.rEll k with
  | none => simp [hk, addTerm]
  | some pr => simp [hk, addTerm]

theorem massTotal_eq (cfg : Config) (sc : Scratch) (n : Nat) (hn : n ≤ sc.shell.length)
    (hr : cfg.pts.length ≤ sc.rEll.length) :
    massTotal cfg sc n =
      (((sc.shell.take n).filterMap (lookup cfg sc.rEll)).map fun pr => pr.1.m).sum := by
  unfold massTotal
  rw [Binning.foldl_add, zero_add]
  have h := range_map_getElem? sc.shell n hn
  have e1 : (List.range n).map (fun run =>
      ((sc.shell[run]?.bind fun k => cfg.pts[k]?).map fun p => p.m).getD 0) =
      ((List.range n).map fun run => sc.shell[run]?).map (fun x =>
        ((x.bind fun k => cfg.pts[k]?).map fun p => p.m).getD 0) := by
    rw [List.map_map]; rfl
  rw [e1, h, List.map_map]
  generalize sc.shell.take n = l
  induction l with
  | nil => rfl
  | cons k l ih =>
    rw [List.map_cons, List.sum_cons, ih]
    by_cases hk : k < cfg.pts.length
    · have hl : lookup cfg sc.rEll k = some (cfg.pts[k], sc.rEll[k]'(by omega)) := by
        simp [lookup, hk, show k < sc.rEll.length by omega]
      rw [List.filterMap_cons, hl]
      simp [hk]
    · have hl : lookup cfg sc.rEll k = none := by
        simp [lookup, hk]
      rw [List.filterMap_cons, hl]
      simp [hk]

theorem calcShapeTensor_eq (cfg : Config) (sc : Scratch) (n : Nat) (hn : n ≤ sc.shell.length)
    (hr : cfg.pts.length ≤ sc.rEll.length) :
    calcShapeTensor cfg sc n =
      pureTensor cfg ((sc.shell.take n).filterMap (lookup cfg sc.rEll)) := by
  unfold calcShapeTensor pureTensor
  simp only [tensorEntry_eq cfg sc n _ _ _ hn, massTotal_eq cfg sc n hn hr]

theorem collect_eq (cfg : Config) (tests : List Bool) (rs rEll : List ℝ) (shell : List Nat)
    (ht : tests.length = cfg.pts.length) (hrs : rs.length = cfg.pts.length)
    (hs : cfg.pts.length ≤ shell.length) :
    (((collect tests cfg.pts.length shell).1.take (collect tests cfg.pts.length shell).2).filterMap
        (lookup cfg (overwrite rs rEll)) = select cfg.pts rs tests) ∧
    (collect tests cfg.pts.length shell).2 = (select cfg.pts rs tests).length ∧
    (collect tests cfg.pts.length shell).1.length = shell.length := by
  have hs' : cfg.pts.length ≤ (shell.map fun _ => 0).length := by simpa using hs
  obtain ⟨h1, -, h3, h4⟩ := Binning.scan_inv (fun i => tests[i]?.getD false) cfg.pts.length
    (shell.map fun _ => 0) hs'
  have hsel : ((List.range cfg.pts.length).filter (fun i => tests[i]?.getD false)).filterMap
      (lookup cfg (overwrite rs rEll)) = select cfg.pts rs tests := by
    unfold select
    have hlen : ((cfg.pts.zip rs).zip tests).length = cfg.pts.length := by simp [ht, hrs]
    rw [← range_filterMap ((cfg.pts.zip rs).zip tests), hlen, List.filterMap_filter]
    apply List.filterMap_congr
    intro k hk
    have hk : k < cfg.pts.length := by simpa using hk
    have e1 : tests[k]? = some (tests[k]'(by omega)) := List.getElem?_eq_getElem (by omega)
    have e2 : (overwrite rs rEll)[k]? = some (rs[k]'(by omega)) := by
      unfold overwrite
      rw [List.getElem?_append_left (by omega), List.getElem?_eq_getElem (by omega)]
    have e3 : ((cfg.pts.zip rs).zip tests)[k]? =
        some ((cfg.pts[k], rs[k]'(by omega)), tests[k]'(by omega)) := by
      rw [List.getElem?_eq_getElem (by omega)]
      simp
    rw [e3, e1, lookup, e2, List.getElem?_eq_getElem hk]
    rfl
  refine ⟨?_, ?_, ?_⟩
  · show ((scan _ _ _).shell.take (scan _ _ _).pts).filterMap _ = _
    rw [h4, hsel]
  · show (scan _ _ _).pts = _
    rw [h3, ← hsel]
    have : ∀ (l : List Nat), (∀ k ∈ l, k < cfg.pts.length) →
        (l.filterMap (lookup cfg (overwrite rs rEll))).length = l.length := by
      intro l
      induction l with
      | nil => intro _; rfl
      | cons k l ih =>
        intro h
        have hk := h k (by simp)
        have hl : lookup cfg (overwrite rs rEll) k = some (cfg.pts[k], rs[k]'(by omega)) := by
          unfold lookup overwrite
          rw [List.getElem?_append_left (by omega), List.getElem?_eq_getElem hk,
            List.getElem?_eq_getElem (by omega)]
          rfl
        rw [List.filterMap_cons, hl]
        simp only [List.length_cons]
        rw [ih fun k hk => h k (by simp [hk])]
    rw [this]
    intro k hk
    simpa using List.mem_of_mem_filter hk
  · show (scan _ _ _).shell.length = _
    rw [h1]; simp

theorem mapM_length {α β : Type} (f : α → Option β) (l : List α) (r : List β)
    (h : l.mapM f = some r) : r.length = l.length := by
  induction l generalizing r with
  | nil => simp at h; subst h; rfl
  | cons a l ih =>
    rw [List.mapM_cons] at h
    cases hf : f a with
    | none => rw [hf] at h; simp at h
    | some b =>
      rw [hf] at h
      cases hm : l.mapM f with
      | none => rw [hm] at h; simp at h
      | some bs =>
        rw [hm] at h
        simp at h
        subst h
        simp [ih bs hm]

/-- The scratch state represents the pure state. -/
structure Rel (cfg : Config) (sLen rLen : Nat) (st : LoopState) (ps : PState) : Prop where
  q : st.q = ps.q
  s : st.s = ps.s
  err : st.err = ps.err
  iteration : st.iteration = ps.iteration
  morph : st.morph = ps.morph
  sel : (st.sc.shell.take st.n).filterMap (lookup cfg st.sc.rEll) = ps.sel
  n : st.n = ps.sel.length
  nle : st.n ≤ st.sc.shell.length
  slen : st.sc.shell.length = sLen
  rlen : st.sc.rEll.length = rLen

theorem overwrite_length {α : Type} (new old : List α) (h : new.length ≤ old.length) :
    (overwrite new old).length = old.length := by
  simp [overwrite]; omega

theorem select_length_le (pts : List Pt) (rs : List ℝ) (tests : List Bool) :
    (select pts rs tests).length ≤ pts.length := by
  unfold select
  refine (List.length_filterMap_le _ _).trans ?_
  simp only [List.length_zip]; omega

theorem iterate_rel (cfg : Config) (sLen rLen : Nat) (hs : cfg.pts.length ≤ sLen)
    (hr : cfg.pts.length ≤ rLen) (st : LoopState) (ps : PState) (h : Rel cfg sLen rLen st ps) :
    (iterate cfg st = none ∧ pureIterate cfg ps = none) ∨
    ∃ st' ps', iterate cfg st = some st' ∧ pureIterate cfg ps = some ps' ∧
      Rel cfg sLen rLen st' ps' := by
  have ht : calcShapeTensor cfg st.sc st.n = pureTensor cfg ps.sel := by
    rw [calcShapeTensor_eq cfg st.sc st.n h.nle (by rw [h.rlen]; exact hr), h.sel]
  unfold iterate pureIterate
  rw [ht, h.q, h.s]
  cases pureTensor cfg ps.sel with
  | none => left; exact ⟨rfl, rfl⟩
  | some t =>
    simp only [Option.bind_eq_bind, Option.bind_some]
    cases diagonalise cfg t ps.q ps.s with
    | none => left; exact ⟨rfl, rfl⟩
    | some r =>
      obtain ⟨qn, sn, err, major, inter, minor⟩ := r
      simp only [Option.bind_some]
      cases hrs : (cfg.pts.map (toPrinc cfg major inter minor)).mapM
          (fun y => (ellRadius2 qn sn y).map Real.sqrt) with
      | none => left; exact ⟨rfl, rfl⟩
      | some rs =>
        simp only [Option.bind_some]
        cases hts : (cfg.pts.map (toPrinc cfg major inter minor)).mapM (laterTest cfg qn sn) with
        | none => left; exact ⟨rfl, rfl⟩
        | some tests =>
          right
          have l1 : rs.length = cfg.pts.length := by simpa using mapM_length _ _ _ hrs
          have l2 : tests.length = cfg.pts.length := by simpa using mapM_length _ _ _ hts
          obtain ⟨c1, c2, c3⟩ := collect_eq cfg tests rs st.sc.rEll st.sc.shell l2 l1
            (by rw [h.slen]; exact hs)
          refine ⟨_, _, rfl, rfl, ?_⟩
          exact { q := rfl, s := rfl, err := rfl
                  iteration := by simp only [h.iteration]
                  morph := rfl
                  sel := c1
                  n := c2
                  nle := by
                    simp only [c2, c3, h.slen]
                    exact (select_length_le _ _ _).trans hs
                  slen := by simp only [c3, h.slen]
                  rlen := by
                    simp only
                    rw [overwrite_length _ _ (by rw [l1, h.rlen]; exact hr), h.rlen] }

theorem loop_rel (cfg : Config) (sLen rLen : Nat) (hs : cfg.pts.length ≤ sLen)
    (hr : cfg.pts.length ≤ rLen) (fuel : Nat) (st : LoopState) (ps : PState)
    (h : Rel cfg sLen rLen st ps) :
    (loop (loopStep cfg) fuel st).map (Option.map Prod.fst) = loop (pureStep cfg) fuel ps ∧
    ∀ m sc', loop (loopStep cfg) fuel st = some (some (m, sc')) →
      sc'.shell.length = sLen ∧ sc'.rEll.length = rLen := by
  induction fuel generalizing st ps with
  | zero => exact ⟨rfl, by simp [loop]⟩
  | succ fuel ih =>
    have fin : ∀ m : Morph, ∀ m' sc', some (some (m, st.sc)) = some (some (m', sc')) →
        sc'.shell.length = sLen ∧ sc'.rEll.length = rLen := by
      intro m m' sc' e
      simp only [Option.some.injEq, Prod.mk.injEq] at e
      rw [← e.2]; exact ⟨h.slen, h.rlen⟩
    unfold loop loopStep pureStep
    rw [h.err]
    by_cases he : ps.err > cfg.tol
    · rw [if_pos he, if_pos he, h.iteration]
      by_cases hw : (ps.iteration : Int) > cfg.wall
      · rw [if_pos hw, if_pos hw]; exact ⟨rfl, fin _⟩
      · rw [if_neg hw, if_neg hw, h.n]
        by_cases hm : (ps.sel.length : Int) < cfg.itMin
        · rw [if_pos hm, if_pos hm]; exact ⟨rfl, fin _⟩
        · rw [if_neg hm, if_neg hm]
          rcases iterate_rel cfg sLen rLen hs hr st ps h with ⟨e1, e2⟩ | ⟨st', ps', e1, e2, hr'⟩
          · rw [e1, e2]; exact ⟨rfl, by simp⟩
          · rw [e1, e2]; exact ih st' ps' hr'
    · rw [if_neg he, if_neg he, h.morph]; exact ⟨rfl, fin _⟩

/-- Whatever the scratch arrays contain, the result is that of the computation without them. -/
theorem runAlgo_pure (fuel : Nat) (cfg : Config) (morph : Morph) (sc : Scratch)
    (hs : cfg.pts.length ≤ sc.shell.length) (hr : cfg.pts.length ≤ sc.rEll.length) :
    (runAlgo fuel cfg morph sc).map (Option.map Prod.fst) = pureRun fuel cfg morph ∧
    ∀ m sc', runAlgo fuel cfg morph sc = some (some (m, sc')) →
      sc'.shell.length = sc.shell.length ∧ sc'.rEll.length = sc.rEll.length := by
  apply loop_rel cfg _ _ hs hr
  obtain ⟨c1, c2, c3⟩ := collect_eq cfg (cfg.pts.map (initialTest cfg))
    (cfg.pts.map (radius0 cfg)) sc.rEll sc.shell (by simp) (by simp) hs
  exact { q := rfl, s := rfl, err := rfl, iteration := rfl, morph := rfl
          sel := c1
          n := c2
          nle := by
            simp only [start, c2, c3]
            exact (select_length_le _ _ _).trans hs
          slen := by simp only [start, c3]
          rlen := by
            simp only [start]
            rw [overwrite_length _ _ (by simpa using hr)] }

end Verif.Shapes
