import Verif.Api.ShapesProps
import Verif.Shapes.Continuity

/-!
# Shape catalogues under small changes of the data, from arrays to result (C183)
-/

namespace Verif.Api

open Verif.Shapes
open Verif (Vec Particle weightedMean totalMass)
open Verif.Units (Cfg mpch)
open Filter Topology

/-! ## Specification -/

/-- Data which approach the given data: the same number of particles, the same lists of particles for the objects; positions, masses and R200
approach the given ones. -/
structure DataApproach {ι : Type} (F : Filter ι) (xyzs : ι → List (Vec ℝ)) (ms : ι → List ℝ) (objss : ι → List (List Nat × ℝ))
    (xyz : List (Vec ℝ)) (masses : List ℝ) (objs : List (List Nat × ℝ)) : Prop where
  number : ∀ i, (xyzs i).length = xyz.length
  positions : ∀ k a, Tendsto (fun i => (xyzs i).getD k 0 a) F (𝓝 (xyz.getD k 0 a))
  masses : ∀ k, Tendsto (fun i => (ms i).getD k 0) F (𝓝 (masses.getD k 0))
  members : ∀ i, (objss i).map Prod.fst = objs.map Prod.fst
  r200 : ∀ k, Tendsto (fun i => ((objss i).map Prod.snd).getD k 0) F (𝓝 ((objs.map Prod.snd).getD k 0))

/-- An axis as reported; exact zeros are shown as NaN (C40). -/
noncomputable def axisOf (v : Fin 3 → Option ℝ) : Vec ℝ := fun a => (v a).getD 0

/-- Two entries of catalogues are equal up to `ε`: both are NaN, or both are numbers and differ by at most `ε`, and the ellipsoidal distances by at
most the fraction `ε` in every direction. -/
structure CloseEntries (ε : ℝ) (e e' : ShapeEntry) : Prop where
  conv : e'.conv = e.conv
  gap : e.conv = false → e'.d = none ∧ e'.q = none ∧ e'.s = none ∧ ∀ a, e'.major a = none ∧ e'.inter a = none ∧ e'.minor a = none
  shape : e.conv = true → ∃ d q s d' q' s', e.d = some d ∧ e.q = some q ∧ e.s = some s ∧ e'.d = some d' ∧ e'.q = some q' ∧ e'.s = some s' ∧
    |d' - d| ≤ ε ∧ |q' - q| ≤ ε ∧ |s' - s| ≤ ε ∧
    ∀ w, |ellipsoidal2 (axisOf e'.major) (axisOf e'.inter) (axisOf e'.minor) q' s' w -
        ellipsoidal2 (axisOf e.major) (axisOf e.inter) (axisOf e.minor) q s w| ≤
      ε * ellipsoidal2 (axisOf e.major) (axisOf e.inter) (axisOf e.minor) q s w

/-! ## Proof -/

theorem particlesOf_eq {xyz : List (Vec ℝ)} {masses : List ℝ} (hl : xyz.length = masses.length) {idx : List Nat} (h : ∀ i ∈ idx, i < xyz.length) :
    particlesOf xyz masses idx = idx.map fun i => ⟨xyz.getD i 0, masses.getD i 0⟩ := by
  induction idx with
  | nil => rfl
  | cons j idx ih =>
    have hj := h j (by simp)
    have e1 : xyz[j]? = some (xyz.getD j 0) := by
      rw [List.getD_eq_getElem?_getD, List.getElem?_eq_getElem hj]; rfl
    have e2 : masses[j]? = some (masses.getD j 0) := by
      rw [List.getD_eq_getElem?_getD, List.getElem?_eq_getElem (hl ▸ hj)]; rfl
    unfold particlesOf at ih ⊢
    rw [List.filterMap_cons, e1, e2, ih fun i hi => h i (by simp [hi])]
    rfl

section

variable {ι : Type} {F : Filter ι}

theorem resolved_near (minPtcs : Int) : ∀ (objs : List (List Nat × ℝ)) (objss : ι → List (List Nat × ℝ)), (∀ i, (objss i).map Prod.fst = objs.map Prod.fst) →
    (∀ k, Tendsto (fun i => ((objss i).map Prod.snd).getD k 0) F (𝓝 ((objs.map Prod.snd).getD k 0))) →
    ∀ (j : Nat) (obj : List Nat × ℝ), (resolved minPtcs objs)[j]? = some obj →
      ∃ r : ι → ℝ, Tendsto r F (𝓝 obj.2) ∧ ∀ i, (resolved minPtcs (objss i))[j]? = some (obj.1, r i) := by
  intro objs
  induction objs with
  | nil =>
    intro objss _ _ j obj h
    simp [resolved] at h
  | cons o objs ih =>
    intro objss hm hr j obj h
    have hcons : ∀ i, ∃ r rest, objss i = (o.1, r) :: rest ∧ rest.map Prod.fst = objs.map Prod.fst := by
      intro i
      have := hm i
      rcases hi : objss i with _ | ⟨⟨l, r⟩, rest⟩
      · rw [hi] at this
        simp at this
      · rw [hi] at this
        simp only [List.map_cons, List.cons.injEq] at this
        exact ⟨r, rest, by rw [this.1], this.2⟩
    choose r rest hrest hfst using hcons
    have h0 : Tendsto r F (𝓝 o.2) := by
      have := hr 0
      simpa [hrest] using this
    have hs : ∀ k, Tendsto (fun i => ((rest i).map Prod.snd).getD k 0) F (𝓝 ((objs.map Prod.snd).getD k 0)) := by
      intro k
      have := hr (k + 1)
      simpa [hrest] using this
    have hrec := ih rest hfst hs
    by_cases hp : minPtcs ≤ (o.1.length : Int)
    · have e1 : resolved minPtcs (o :: objs) = o :: resolved minPtcs objs := by
        unfold resolved
        rw [List.filter_cons_of_pos (by simpa using hp)]
      have e2 : ∀ i, resolved minPtcs (objss i) = (o.1, r i) :: resolved minPtcs (rest i) := by
        intro i
        rw [hrest]
        unfold resolved
        rw [List.filter_cons_of_pos (by simpa using hp)]
      rw [e1] at h
      rcases j with _ | j
      · rw [List.getElem?_cons_zero] at h
        obtain rfl := Option.some.inj h
        exact ⟨r, h0, fun i => by rw [e2, List.getElem?_cons_zero]⟩
      · rw [List.getElem?_cons_succ] at h
        obtain ⟨r', h1, h2⟩ := hrec j obj h
        exact ⟨r', h1, fun i => by rw [e2, List.getElem?_cons_succ]; exact h2 i⟩
    · have e1 : resolved minPtcs (o :: objs) = resolved minPtcs objs := by
        unfold resolved
        rw [List.filter_cons_of_neg (by simpa using hp)]
      have e2 : ∀ i, resolved minPtcs (objss i) = resolved minPtcs (rest i) := by
        intro i
        rw [hrest]
        unfold resolved
        rw [List.filter_cons_of_neg (by simpa using hp)]
      rw [e1] at h
      obtain ⟨r', h1, h2⟩ := hrec j obj h
      exact ⟨r', h1, fun i => by rw [e2]; exact h2 i⟩

theorem resolved_fst (minPtcs : Int) {objs objs' : List (List Nat × ℝ)} (h : objs'.map Prod.fst = objs.map Prod.fst) :
    (resolved minPtcs objs').map Prod.fst = (resolved minPtcs objs).map Prod.fst := by
  have key : ∀ l : List (List Nat × ℝ), (resolved minPtcs l).map Prod.fst =
      (l.map Prod.fst).filter fun o => decide (minPtcs ≤ (o.length : Int)) := by
    intro l
    rw [List.filter_map]
    rfl
  rw [key, key, h]

theorem resolved_length (minPtcs : Int) {objs objs' : List (List Nat × ℝ)} (h : objs'.map Prod.fst = objs.map Prod.fst) :
    (resolved minPtcs objs').length = (resolved minPtcs objs).length := by
  have := congrArg List.length (resolved_fst minPtcs h)
  simpa using this

variable {xyzs : ι → List (Vec ℝ)} {ms : ι → List ℝ} {objss : ι → List (List Nat × ℝ)} {xyz : List (Vec ℝ)} {masses : List ℝ}
  {objs : List (List Nat × ℝ)}

/-- The tasks approach the task, whatever the centres. -/
theorem task_near_at (h : DataApproach F xyzs ms objss xyz masses objs) (hl : xyz.length = masses.length) (hls : ∀ i, (xyzs i).length = (ms i).length)
    (idx : List Nat) (hidx : ∀ j ∈ idx, j < xyz.length) (vs : ι → Vec ℝ) (v : Vec ℝ) (hmean : ∀ a, Tendsto (fun i => vs i a) F (𝓝 (v a))) (katz : Katz)
    (hradii : ∀ r ∈ katz.radii, 0 < r) (sol : Solver) (hsol : GoodSolver sol) (whole : Bool) (r200 : ℝ) (hr0 : 0 < r200) (rs : ι → ℝ)
    (hr : Tendsto rs F (𝓝 r200)) (margin : ℝ) (b : Nat) (hb : b < wantedColumns katz whole) :
    Approach F (fun i => task katz sol (particlesOf (xyzs i) (ms i) idx) (vs i) (wantedVolume katz whole (rs i) margin b))
      (task katz sol (particlesOf xyz masses idx) v (wantedVolume katz whole r200 margin b)) := by
  have hp : particlesOf xyz masses idx = idx.map fun j => ⟨xyz.getD j 0, masses.getD j 0⟩ := particlesOf_eq hl hidx
  have hps : ∀ i, particlesOf (xyzs i) (ms i) idx = idx.map fun j => ⟨(xyzs i).getD j 0, (ms i).getD j 0⟩ := fun i =>
    particlesOf_eq (hls i) fun j hj => by rw [h.number]; exact hidx j hj
  have hpart : ∀ (i : ι) (k : Nat) (hk : k < idx.length), particle (task katz sol (particlesOf (xyzs i) (ms i) idx)
      (vs i) (wantedVolume katz whole (rs i) margin b)) k =
      ⟨(xyzs i).getD idx[k] 0, (xyzs i).getD idx[k] 0, (ms i).getD idx[k] 0⟩ := by
    intro i k hk
    unfold particle task
    rw [List.getD_eq_getElem?_getD, List.getElem?_map, hps, List.getElem?_map, List.getElem?_eq_getElem hk]
    rfl
  have hpart0 : ∀ (k : Nat) (hk : k < idx.length), particle (task katz sol (particlesOf xyz masses idx)
      v (wantedVolume katz whole r200 margin b)) k =
      ⟨xyz.getD idx[k] 0, xyz.getD idx[k] 0, masses.getD idx[k] 0⟩ := by
    intro k hk
    unfold particle task
    rw [List.getD_eq_getElem?_getD, List.getElem?_map, hp, List.getElem?_map, List.getElem?_eq_getElem hk]
    rfl
  have hlen : (task katz sol (particlesOf xyz masses idx) v (wantedVolume katz whole r200 margin b)).pts.length =
      idx.length := by
    simp [task, hp]
  have hd : Tendsto (fun i => (wantedVolume katz whole (rs i) margin b).1) F (𝓝 (wantedVolume katz whole r200 margin b).1) := by
    unfold wantedVolume
    cases whole with
    | true => exact hr.add_const margin
    | false => exact hr.mul_const _
  refine ⟨fun i => ⟨rfl, rfl, rfl, rfl⟩, fun i => ?_, fun δ hδ => ?_, fun hin i => ?_, fun i => hsol, fun i => ?_, hd, hmean, hmean, ?_, ?_, ?_⟩
  · show (wantedVolume katz whole (rs i) margin b).2 = none ↔ (wantedVolume katz whole r200 margin b).2 = none
    unfold wantedVolume
    cases whole with
    | true => exact Iff.rfl
    | false =>
      by_cases hsh : katz.shellBased = true
      · by_cases h0 : b = 0 <;> simp [hsh, h0]
      · simp [hsh]
  · have hδ' : (wantedVolume katz whole r200 margin b).2 = some δ := hδ
    show Tendsto (fun i => (wantedVolume katz whole (rs i) margin b).2.getD 0) F (𝓝 δ)
    unfold wantedVolume at hδ' ⊢
    cases whole with
    | true => cases hδ'
    | false =>
      by_cases hsh : katz.shellBased = true
      · by_cases h0 : b = 0
        · simp only [Bool.false_eq_true, if_false, hsh, h0, if_true] at hδ' ⊢
          rw [← Option.some.inj hδ']
          exact hr.mul_const _
        · simp only [Bool.false_eq_true, if_false, hsh, h0, if_true] at hδ' ⊢
          rw [← Option.some.inj hδ']
          exact (hr.mul_const _).sub (hr.mul_const _)
      · simp [hsh] at hδ'
  · have hin' : (wantedVolume katz whole r200 margin b).2 = some (wantedVolume katz whole r200 margin b).1 := hin
    show (wantedVolume katz whole (rs i) margin b).2 = some (wantedVolume katz whole (rs i) margin b).1
    unfold wantedVolume at hin' ⊢
    cases whole with
    | true => cases hin'
    | false =>
      by_cases hsh : katz.shellBased = true
      · by_cases h0 : b = 0
        · simp [hsh, h0]
        · exfalso
          simp only [Bool.false_eq_true, if_false, hsh, h0, if_true] at hin'
          have h1 := Option.some.inj hin'
          have hb' : b - 1 < katz.radii.length := by
            have : b < katz.radii.length := hb
            omega
          have h2 : 0 < katz.radii[b - 1]?.getD 0 := by
            rw [List.getElem?_eq_getElem hb']
            exact hradii _ (List.getElem_mem hb')
          have := mul_pos hr0 h2
          linarith
      · simp [hsh] at hin'
  · simp [task, hp, hps]
  · intro k hk j
    rw [hlen] at hk
    simp only [hpart _ k hk, hpart0 k hk]
    exact h.positions _ j
  · intro k hk j
    rw [hlen] at hk
    simp only [hpart _ k hk, hpart0 k hk]
    exact h.positions _ j
  · intro k hk
    rw [hlen] at hk
    simp only [hpart _ k hk, hpart0 k hk]
    exact h.masses _

/-- The tasks approach the task. -/
theorem task_near (h : DataApproach F xyzs ms objss xyz masses objs) (hl : xyz.length = masses.length) (hls : ∀ i, (xyzs i).length = (ms i).length)
    (hpos : ∀ m ∈ masses, 0 < m) (idx : List Nat) (hidx : ∀ j ∈ idx, j < xyz.length) (hne : idx ≠ []) (katz : Katz)
    (hradii : ∀ r ∈ katz.radii, 0 < r) (sol : Solver) (hsol : GoodSolver sol) (whole : Bool) (r200 : ℝ) (hr0 : 0 < r200) (rs : ι → ℝ)
    (hr : Tendsto rs F (𝓝 r200)) (margin : ℝ) (b : Nat) (hb : b < wantedColumns katz whole) :
    Approach F (fun i => task katz sol (particlesOf (xyzs i) (ms i) idx) (weightedMean (particlesOf (xyzs i) (ms i) idx)) (wantedVolume katz whole (rs i) margin b))
      (task katz sol (particlesOf xyz masses idx) (weightedMean (particlesOf xyz masses idx)) (wantedVolume katz whole r200 margin b)) := by
  have hp : particlesOf xyz masses idx = idx.map fun j => ⟨xyz.getD j 0, masses.getD j 0⟩ := particlesOf_eq hl hidx
  have hps : ∀ i, particlesOf (xyzs i) (ms i) idx = idx.map fun j => ⟨(xyzs i).getD j 0, (ms i).getD j 0⟩ := fun i =>
    particlesOf_eq (hls i) fun j hj => by rw [h.number]; exact hidx j hj
  have htot : totalMass (particlesOf xyz masses idx) ≠ 0 := by
    refine (totalMass_pos _ ?_ ?_).ne'
    · rw [hp]; simpa using hne
    · intro p hpm
      rw [hp] at hpm
      obtain ⟨j, hj, rfl⟩ := List.mem_map.1 hpm
      refine hpos _ ?_
      have hj' : j < masses.length := hl ▸ hidx j hj
      show masses.getD j 0 ∈ masses
      rw [List.getD_eq_getElem?_getD, List.getElem?_eq_getElem hj']
      exact List.getElem_mem hj'
  have hmean : ∀ a, Tendsto (fun i => weightedMean (particlesOf (xyzs i) (ms i) idx) a) F (𝓝 (weightedMean (particlesOf xyz masses idx) a)) := by
    intro a
    refine Tendsto.div ?_ ?_ htot
    · simp only [hp, hps, List.map_map]
      exact tendsto_list_sum _ fun j _ => (h.masses j).mul (h.positions j a)
    · simp only [hp, hps, totalMass, List.map_map]
      exact tendsto_list_sum _ fun j _ => h.masses j
  exact task_near_at h hl hls idx hidx _ _ hmean katz hradii sol hsol whole r200 hr0 rs hr margin b hb

theorem axisOf_shown {v : Fin 3 → Option ℝ} {w : Vec ℝ} (h : ∀ a, v a = shown (w a)) : axisOf v = w := by
  funext a
  unfold axisOf
  rw [h a]
  unfold shown
  split_ifs with h0
  · exact h0.symm
  · rfl

/-- Entries which answer tasks with a close shape. -/
theorem entries_shape {cfg cfg' : Config} {inL outL ε : ℝ} (hi : 0 < inL) (ho : 0 < outL) {e e' : ShapeEntry} {m m' : Morph} {d d' : ℝ}
    (h1 : e.conv = true ∧ e.q = some m.q ∧ e.s = some m.s ∧ e.d = some d ∧ d * outL = cfg.d * inL ∧
      ∀ a, e.major a = shown (m.major a) ∧ e.inter a = shown (m.inter a) ∧ e.minor a = shown (m.minor a))
    (h2 : e'.conv = true ∧ e'.q = some m'.q ∧ e'.s = some m'.s ∧ e'.d = some d' ∧ d' * outL = cfg'.d * inL ∧
      ∀ a, e'.major a = shown (m'.major a) ∧ e'.inter a = shown (m'.inter a) ∧ e'.minor a = shown (m'.minor a))
    (hm : m.d = cfg.d) (hm' : m'.d = cfg'.d) (hz : m ≠ .zero)
    (hc : CloseReports (min ε (ε * outL / inL)) m m') : CloseEntries ε e e' := by
  obtain ⟨c1, q1, s1, d1, l1, a1⟩ := h1
  obtain ⟨c2, q2, s2, d2, l2, a2⟩ := h2
  refine ⟨by rw [c1, c2], fun h => ?_, fun _ => ⟨d, m.q, m.s, d', m'.q, m'.s, d1, q1, s1, d2, q2, s2, ?_, hc.q.trans (min_le_left _ _),
    hc.s.trans (min_le_left _ _), fun w => ?_⟩⟩
  · rw [c1] at h
    cases h
  · have h3 := hc.d.trans (min_le_right _ _)
    rw [hm, hm'] at h3
    have h4 : d' - d = (cfg'.d - cfg.d) * inL / outL := by
      rw [eq_div_iff ho.ne']
      linarith
    rw [h4, abs_div, abs_mul, abs_of_pos hi, abs_of_pos ho, div_le_iff₀ ho]
    exact (le_div_iff₀ hi).1 h3
  · rw [axisOf_shown fun a => (a1 a).1, axisOf_shown fun a => (a1 a).2.1, axisOf_shown fun a => (a1 a).2.2,
      axisOf_shown fun a => (a2 a).1, axisOf_shown fun a => (a2 a).2.1, axisOf_shown fun a => (a2 a).2.2]
    refine (hc.ellipsoid hz w).trans (mul_le_mul_of_nonneg_right (min_le_left _ _) ?_)
    unfold ellipsoidal2
    positivity

theorem classified_d {cfg : Config} {m : Morph} (h : Classified cfg m) : m.d = cfg.d ∧ m ≠ .zero := by
  obtain ⟨n, e, e', -, -, -, hax, -, rfl⟩ := h
  refine ⟨rfl, fun hz => ?_⟩
  obtain ⟨a, b, c, hp, hq, -⟩ := hax.principal
  have h0 : e'.q = 0 := congrArg Morph.q hz
  have : 0 < b / a := div_pos (hp.pos.trans_le hp.cb) ((hp.pos.trans_le hp.cb).trans_le hp.ba)
  rw [hq] at h0
  linarith

/-- One entry. -/
theorem entry_near {cfgs : ι → Config} {cfg : Config} (h : Approach F cfgs cfg) (hgen : Generic cfg)
    (hcen : cfg.reduced = true → ∀ p ∈ cfg.pts, rel cfg p ≠ 0) (hspread : ∃ p ∈ cfg.pts, ∃ p' ∈ cfg.pts, p.x ≠ p'.x) {inL outL : ℝ} (hi : 0 < inL)
    (ho : 0 < outL) {e : ShapeEntry} (he : Answers cfg inL outL e) {ε : ℝ} (hε : 0 < ε) :
    ∀ᶠ i in F, ¬ Degenerate (cfgs i) ∧ ∀ e', Answers (cfgs i) inL outL e' → CloseEntries ε e e' := by
  have hspread' : ∀ᶠ i in F, ¬ ∀ p ∈ (cfgs i).pts, ∀ p' ∈ (cfgs i).pts, p.x = p'.x := by
    obtain ⟨p, hp, p', hp', hne⟩ := hspread
    obtain ⟨k, hk, rfl⟩ := mem_particle cfg hp
    obtain ⟨k', hk', rfl⟩ := mem_particle cfg hp'
    obtain ⟨j, hj⟩ : ∃ j, (particle cfg k).x j ≠ (particle cfg k').x j := by
      by_contra hc
      push Not at hc
      exact hne (funext hc)
    filter_upwards [((h.x k hk j).sub (h.x k' hk' j)).eventually_ne (sub_ne_zero.2 hj)] with i hi hall
    refine hi (sub_eq_zero.2 (congrFun (hall _ (particle_mem _ ?_) _ (particle_mem _ ?_)) j))
    · rw [h.number]; exact hk
    · rw [h.number]; exact hk'
  rcases he with ⟨c0, g1, g2, g3, g4, hgap⟩ | ⟨m, d, hcl, hrest⟩
  · rcases hgap with hu | hall
    · filter_upwards [unclassifiable_near h hgen hcen hu] with i hi'
      refine ⟨hi'.2, fun e' he' => ?_⟩
      rcases he' with ⟨c0', f1, f2, f3, f4, -⟩ | ⟨m', -, hcl', -⟩
      · exact ⟨by rw [c0, c0'], fun _ => ⟨f1, f2, f3, f4⟩, fun hc => by rw [c0] at hc; cases hc⟩
      · exact absurd hcl' (hi'.1 m')
    · obtain ⟨p, hp, p', hp', hne⟩ := hspread
      exact absurd (hall p hp p' hp') hne
  · have hε' : 0 < min ε (ε * outL / inL) := lt_min hε (by positivity)
    filter_upwards [classified_near h hgen hcen m hcl _ hε', hspread'] with i hi' hsp
    refine ⟨hi'.2.2, fun e' he' => ?_⟩
    rcases he' with ⟨-, -, -, -, -, hgap⟩ | ⟨m', d', hcl', hrest'⟩
    · exact absurd hgap (not_or.2 ⟨hi'.2.1, hsp⟩)
    · exact entries_shape hi ho hrest hrest' (classified_d hcl).1 (classified_d hcl').1 (classified_d hcl).2 (hi'.1 m' hcl')

/-- C183. Take any sensible arrays of positions and masses, lists of objects and R200, any settings with CENTER = 'com' and a selection of objects
each of which extends over less than half the box without crossing a face, has no decision of its iteration on a knife's edge (`Generic`), has two
particles at different positions, and none exactly at its centre if the tensor is reduced.  If a call for the shape catalogue returns `res`, and
arrays approach the given ones, then eventually every call with these arrays (whatever the schedule) returns a catalogue of the same format, with
NaN in the same places and entries which differ by at most `ε`. -/
theorem C183_catalogue (c c' : Cfg ℝ) (hc : c.Pos) (hc' : c'.Pos) (hh : c'.h = c.h)
    (xyz : List (Vec ℝ)) (masses : List ℝ) (box : ℝ) (objs : List (List Nat × ℝ)) (minPtcs : Int) (hmin : 1 ≤ minPtcs)
    (hs : Sensible xyz masses box objs) (hr200 : ∀ o ∈ objs, 0 < o.2)
    (xyzs : ι → List (Vec ℝ)) (ms : ι → List ℝ) (objss : ι → List (List Nat × ℝ))
    (hss : ∀ i, Sensible (xyzs i) (ms i) box (objss i)) (hr200s : ∀ i, ∀ o ∈ objss i, 0 < o.2)
    (happ : DataApproach F xyzs ms objss xyz masses objs)
    (sol : Solver) (hsol : GoodSolver sol) (choose : Nat → List Nat) (hch : ∀ n, 0 < n → ∃ j ∈ choose n, j < n) (limit : Nat)
    (katz : Katz) (htol : katz.tol < 1) (hradii : ∀ r ∈ katz.radii, 0 < r) (whole : Bool)
    (sel : List Int) (hsel : GoodSelection sel (resolved minPtcs objs).length)
    (hobj : ∀ (z : Int) (obj : List Nat × ℝ), z ∈ sel → (resolved minPtcs objs)[z.toNat]? = some obj →
      (∀ p ∈ particlesOf xyz masses obj.1, ∀ q ∈ particlesOf xyz masses obj.1, ∀ a, |p.pos a - q.pos a| < box / 2) ∧
      (∃ p ∈ particlesOf xyz masses obj.1, ∃ q ∈ particlesOf xyz masses obj.1, p.pos ≠ q.pos) ∧
      (katz.reduced = true → ∀ p ∈ particlesOf xyz masses obj.1, p.pos ≠ weightedMean (particlesOf xyz masses obj.1)) ∧
      ∀ b < wantedColumns katz whole, Generic (task katz sol (particlesOf xyz masses obj.1) (weightedMean (particlesOf xyz masses obj.1))
        (wantedVolume katz whole obj.2 (6 * mpch c.h / c.inL) b)))
    (o : Obj) (ho : construct c ⟨xyz, masses, .nested (objs.map Prod.fst), .array (objs.map Prod.snd), box, minPtcs, .com⟩ = .ok o)
    (res : List (List ShapeEntry)) (hrun : GetShapeCat c' sol choose limit o katz whole sel (.ok res)) (ε : ℝ) (hε : 0 < ε) :
    ∀ᶠ i in F, ∀ o', construct c ⟨xyzs i, ms i, .nested ((objss i).map Prod.fst), .array ((objss i).map Prod.snd), box, minPtcs, .com⟩ = .ok o' →
      ∀ out, GetShapeCat c' sol choose limit o' katz whole sel out →
        ∃ res', out = .ok res' ∧ res'.length = res.length ∧ ∀ (k : Nat) (row row' : List ShapeEntry), res[k]? = some row → res'[k]? = some row' →
          row'.length = row.length ∧ ∀ (b : Nat) (e e' : ShapeEntry), row[b]? = some e → row'[b]? = some e' → CloseEntries ε e e' := by
  rcases C106_shapes_partial c c' hc hc' hh xyz masses box objs minPtcs hmin .com hs hr200 sol hsol choose hch limit o ho katz htol hradii whole sel hsel
    _ hrun with ⟨h, -⟩ | ⟨h, -⟩ | ⟨res₀, h, hlen, hrows⟩
  · cases h
  · cases h
  obtain rfl : res = res₀ := by cases h; rfl
  -- every entry
  have hentry : ∀ k < sel.length, ∀ᶠ i in F, ∀ (z : Int) (obj' : List Nat × ℝ), sel[k]? = some z → (resolved minPtcs (objss i))[z.toNat]? = some obj' →
      NotCrossing box (particlesOf (xyzs i) (ms i) obj'.1) ∧
      ∀ b < wantedColumns katz whole,
        ¬ Degenerate (task katz sol (particlesOf (xyzs i) (ms i) obj'.1) (weightedMean (particlesOf (xyzs i) (ms i) obj'.1))
          (wantedVolume katz whole obj'.2 (6 * mpch c.h / c.inL) b)) ∧
        ∀ row e e', res[k]? = some row → row[b]? = some e →
          Answers (task katz sol (particlesOf (xyzs i) (ms i) obj'.1) (weightedMean (particlesOf (xyzs i) (ms i) obj'.1))
            (wantedVolume katz whole obj'.2 (6 * mpch c.h / c.inL) b)) c.inL c'.outL e' → CloseEntries ε e e' := by
    intro k hk
    have hz : sel[k]? = some sel[k] := List.getElem?_eq_getElem hk
    have hzr := hsel.2.2 _ (List.getElem_mem hk)
    have hob : (resolved minPtcs objs)[sel[k].toNat]? = some ((resolved minPtcs objs)[sel[k].toNat]'(by omega)) := List.getElem?_eq_getElem (by omega)
    generalize hobjdef : (resolved minPtcs objs)[sel[k].toNat]'(by omega) = obj at hob
    have hmemr : obj ∈ resolved minPtcs objs := List.mem_of_getElem? hob
    have hmem : obj ∈ objs := List.mem_of_mem_filter hmemr
    have hsize : minPtcs ≤ (obj.1.length : Int) := by
      have := (List.mem_filter.1 hmemr).2
      simpa using this
    have hne : obj.1 ≠ [] := by
      intro hnil
      rw [hnil] at hsize
      simp at hsize
      omega
    obtain ⟨o1, o2, o3, o4⟩ := hobj _ obj (List.getElem_mem hk) hob
    obtain ⟨r, hr, hri⟩ := resolved_near minPtcs objs objss happ.members happ.r200 _ obj hob
    obtain ⟨row, hrow, hrl, hans⟩ := hrows k _ obj hz hob
    obtain ⟨sub, -, -, hsub, hans⟩ := hans fun p hp q hq a => (o1 p hp q hq a).le
    rw [hsub rfl] at hans
    have hidx : ∀ j ∈ obj.1, j < xyz.length := hs.exist obj hmem
    have hp0 : particlesOf xyz masses obj.1 = obj.1.map fun j => ⟨xyz.getD j 0, masses.getD j 0⟩ := particlesOf_eq hs.lengths hidx
    have hpi : ∀ i, particlesOf (xyzs i) (ms i) obj.1 = obj.1.map fun j => ⟨(xyzs i).getD j 0, (ms i).getD j 0⟩ := fun i =>
      particlesOf_eq (hss i).lengths fun j hj => by rw [happ.number]; exact hidx j hj
    have hcross : ∀ᶠ i in F, NotCrossing box (particlesOf (xyzs i) (ms i) obj.1) := by
      have : ∀ᶠ i in F, ∀ j ∈ obj.1.toFinset, ∀ j' ∈ obj.1.toFinset, ∀ a ∈ (Finset.univ : Finset (Fin 3)),
          |(xyzs i).getD j 0 a - (xyzs i).getD j' 0 a| < box / 2 := by
        refine (Filter.eventually_all_finset _).2 fun j hj => (Filter.eventually_all_finset _).2 fun j' hj' => (Filter.eventually_all_finset _).2 fun a _ => ?_
        rw [List.mem_toFinset] at hj hj'
        refine ((happ.positions j a).sub (happ.positions j' a)).abs.eventually_lt_const ?_
        rw [hp0] at o1
        exact o1 _ (List.mem_map_of_mem hj) _ (List.mem_map_of_mem hj') a
      filter_upwards [this] with i hi p hp q hq a
      rw [hpi] at hp hq
      obtain ⟨j, hj, rfl⟩ := List.mem_map.1 hp
      obtain ⟨j', hj', rfl⟩ := List.mem_map.1 hq
      exact (hi j (List.mem_toFinset.2 hj) j' (List.mem_toFinset.2 hj') a (Finset.mem_univ a)).le
    have hall : ∀ᶠ i in F, ∀ b ∈ Finset.range (wantedColumns katz whole),
        ¬ Degenerate (task katz sol (particlesOf (xyzs i) (ms i) obj.1) (weightedMean (particlesOf (xyzs i) (ms i) obj.1))
          (wantedVolume katz whole (r i) (6 * mpch c.h / c.inL) b)) ∧
        ∀ e e', row[b]? = some e →
          Answers (task katz sol (particlesOf (xyzs i) (ms i) obj.1) (weightedMean (particlesOf (xyzs i) (ms i) obj.1))
            (wantedVolume katz whole (r i) (6 * mpch c.h / c.inL) b)) c.inL c'.outL e' → CloseEntries ε e e' := by
      refine (Filter.eventually_all_finset _).2 fun b hb => ?_
      rw [Finset.mem_range] at hb
      have hbrow : row[b]? = some (row[b]'(by omega)) := List.getElem?_eq_getElem (by omega)
      have happr := task_near happ hs.lengths (fun i => (hss i).lengths) hs.masses_pos obj.1 hidx hne katz hradii sol hsol whole obj.2 (hr200 obj hmem) r hr
        (6 * mpch c.h / c.inL) b hb
      have := entry_near happr (o4 b hb) (fun hred p hp hz => by
          obtain ⟨x, hx, rfl⟩ := List.mem_map.1 hp
          refine o3 hred x hx (funext fun a => ?_)
          have := congrFun hz a
          exact sub_eq_zero.1 this) (by
          obtain ⟨p, hp, q, hq, hpq⟩ := o2
          exact ⟨_, List.mem_map_of_mem hp, _, List.mem_map_of_mem hq, hpq⟩) hc.inL hc'.outL (hans b _ hbrow) hε
      filter_upwards [this] with i hi
      refine ⟨hi.1, fun e e' he he' => ?_⟩
      rw [hbrow] at he
      obtain rfl := Option.some.inj he
      exact hi.2 e' he'
    filter_upwards [hcross, hall] with i h1 h2 z obj' hz' hobj'
    rw [hz] at hz'
    obtain rfl := Option.some.inj hz'
    rw [hri i] at hobj'
    obtain rfl := Option.some.inj hobj'
    refine ⟨h1, fun b hb => ⟨(h2 b (Finset.mem_range.2 hb)).1, fun row' e e' hrow' he he' => ?_⟩⟩
    rw [hrow] at hrow'
    obtain rfl := Option.some.inj hrow'
    exact (h2 b (Finset.mem_range.2 hb)).2 e e' he he'
  have hentries : ∀ᶠ i in F, ∀ k ∈ Finset.range sel.length, ∀ (z : Int) (obj' : List Nat × ℝ), sel[k]? = some z →
      (resolved minPtcs (objss i))[z.toNat]? = some obj' →
      NotCrossing box (particlesOf (xyzs i) (ms i) obj'.1) ∧
      ∀ b < wantedColumns katz whole,
        ¬ Degenerate (task katz sol (particlesOf (xyzs i) (ms i) obj'.1) (weightedMean (particlesOf (xyzs i) (ms i) obj'.1))
          (wantedVolume katz whole obj'.2 (6 * mpch c.h / c.inL) b)) ∧
        ∀ row e e', res[k]? = some row → row[b]? = some e →
          Answers (task katz sol (particlesOf (xyzs i) (ms i) obj'.1) (weightedMean (particlesOf (xyzs i) (ms i) obj'.1))
            (wantedVolume katz whole obj'.2 (6 * mpch c.h / c.inL) b)) c.inL c'.outL e' → CloseEntries ε e e' :=
    (Filter.eventually_all_finset _).2 fun k hk => hentry k (Finset.mem_range.1 hk)
  filter_upwards [hentries] with i hi o' ho' out hout
  have hlr := resolved_length minPtcs (happ.members i)
  rcases C106_shapes_partial c c' hc hc' hh (xyzs i) (ms i) box (objss i) minPtcs hmin .com (hss i) (hr200s i) sol hsol choose hch limit o' ho' katz htol hradii
    whole sel (by rw [hlr]; exact hsel) out hout with ⟨-, h⟩ | ⟨-, k, z, obj', hz, hob, hdeg⟩ | ⟨res', rfl, hlen', hrows'⟩
  · cases h
  · exfalso
    have hk : k < sel.length := (List.getElem?_eq_some_iff.1 hz).1
    obtain ⟨h1, h2⟩ := hi k (Finset.mem_range.2 hk) z obj' hz hob
    obtain ⟨sub, -, -, hsub, b, hb, hd⟩ := hdeg h1
    rw [hsub rfl] at hd
    exact (h2 b hb).1 hd
  · refine ⟨res', rfl, by rw [hlen', hlen], fun k row row' hrow hrow' => ?_⟩
    have hk : k < sel.length := by rw [← hlen]; exact (List.getElem?_eq_some_iff.1 hrow).1
    have hz : sel[k]? = some sel[k] := List.getElem?_eq_getElem hk
    have hzr := hsel.2.2 _ (List.getElem_mem hk)
    have hob : (resolved minPtcs objs)[sel[k].toNat]? = some ((resolved minPtcs objs)[sel[k].toNat]'(by omega)) := List.getElem?_eq_getElem (by omega)
    have hob' : (resolved minPtcs (objss i))[sel[k].toNat]? = some ((resolved minPtcs (objss i))[sel[k].toNat]'(by omega)) :=
      List.getElem?_eq_getElem (by omega)
    obtain ⟨row₀, g1, g2, -⟩ := hrows k _ _ hz hob
    obtain rfl : row = row₀ := by rw [hrow] at g1; exact Option.some.inj g1
    obtain ⟨row₁, f1, f2, f3⟩ := hrows' k _ _ hz hob'
    obtain rfl : row' = row₁ := by rw [hrow'] at f1; exact Option.some.inj f1
    obtain ⟨h1, h2⟩ := hi k (Finset.mem_range.2 hk) _ _ hz hob'
    obtain ⟨sub, -, -, hsub, hans⟩ := f3 h1
    rw [hsub rfl] at hans
    refine ⟨by rw [f2, g2], fun b e e' he he' => ?_⟩
    have hb : b < wantedColumns katz whole := by rw [← g2]; exact (List.getElem?_eq_some_iff.1 he).1
    exact (h2 b hb).2 row e e' hrow he (hans b e' he')

end

/-! ## The cross -/

/-- Settings for the cross. -/
noncomputable def crossKatz : Katz := ⟨[1], 1 / 10, 100, 6, false, false⟩

theorem cross_particles : particlesOf crossXyz [1, 1, 1, 1, 1, 1] [0, 1, 2, 3, 4, 5] =
    [⟨![8, 5, 5], 1⟩, ⟨![2, 5, 5], 1⟩, ⟨![5, 7, 5], 1⟩, ⟨![5, 3, 5], 1⟩, ⟨![5, 5, 6], 1⟩, ⟨![5, 5, 4], 1⟩] := by
  simp [particlesOf, crossXyz]

theorem cross_mean : weightedMean (particlesOf crossXyz [1, 1, 1, 1, 1, 1] [0, 1, 2, 3, 4, 5]) = ![5, 5, 5] := by
  rw [cross_particles]
  funext a
  fin_cases a <;> simp [weightedMean, totalMass] <;> norm_num

/-- The cross as a task. -/
noncomputable def crossTask (sol : Solver) : Config :=
  task crossKatz sol (particlesOf crossXyz [1, 1, 1, 1, 1, 1] [0, 1, 2, 3, 4, 5])
    (weightedMean (particlesOf crossXyz [1, 1, 1, 1, 1, 1] [0, 1, 2, 3, 4, 5])) (100, none)

theorem crossTask_eq (sol : Solver) : crossTask sol = ⟨[⟨![8, 5, 5], ![8, 5, 5], 1⟩, ⟨![2, 5, 5], ![2, 5, 5], 1⟩, ⟨![5, 7, 5], ![5, 7, 5], 1⟩,
    ⟨![5, 3, 5], ![5, 3, 5], 1⟩, ⟨![5, 5, 6], ![5, 5, 6], 1⟩, ⟨![5, 5, 4], ![5, 5, 4], 1⟩], ![5, 5, 5], ![5, 5, 5], 100, none, 1 / 10, 100, 6, false,
    sol⟩ := by
  unfold crossTask task
  rw [cross_mean, cross_particles]
  rfl

/-- Its shape. -/
noncomputable def crossShape : Ellipsoid := ⟨![1, 0, 0], ![0, 1, 0], ![0, 0, 1], 2 / 3, 1 / 3⟩

theorem cross_radii (sol : Solver) {e : Ellipsoid} (he : e = sphere ∨ e = crossShape) : ∀ p ∈ (crossTask sol).pts,
    ellipsoidal2 e.major e.inter e.minor e.q e.s (rel (crossTask sol) p) < 100 := by
  rw [crossTask_eq]
  intro p hp
  simp only [List.mem_cons, List.not_mem_nil, or_false] at hp
  rcases he with rfl | rfl <;> rcases hp with rfl | rfl | rfl | rfl | rfl | rfl <;>
    simp [ellipsoidal2, sphere, crossShape, dot, rel] <;> norm_num

theorem cross_members (sol : Solver) {e : Ellipsoid} (he : e = sphere ∨ e = crossShape) : members (crossTask sol) e = (crossTask sol).pts := by
  classical
  unfold members
  rw [List.filter_eq_self]
  intro p hp
  have h1 := cross_radii sol he p hp
  rw [decide_eq_true_eq, inside_iff]
  refine ⟨by show _ < (100 : ℝ) ^ 2; linarith, fun δ hδ _ => ?_⟩
  cases hδ

theorem cross_axes (sol : Solver) {e : Ellipsoid} (he : e = sphere ∨ e = crossShape) : PrincipalAxes (crossTask sol) e crossShape := by
  have h3 : 0 < √(1 / 3 : ℝ) := by positivity
  have hsq : √(1 / 3 : ℝ) ^ 2 = 1 / 3 := Real.sq_sqrt (by norm_num)
  refine ⟨unit_axes, 3 * √(1 / 3), 2 * √(1 / 3), 1 * √(1 / 3), by positivity, by linarith, by linarith, ?_, ?_, ?_, ?_, ?_⟩
  · show (2 / 3 : ℝ) = _
    field_simp
  · show (1 / 3 : ℝ) = _
    field_simp
  all_goals
    intro i
    unfold tensorOf massTensor
    rw [cross_members sol he, crossTask_eq]
    fin_cases i <;> simp [crossShape, mul_pow, hsq] <;> norm_num

theorem cross_reached (sol : Solver) {n : Nat} {e : Ellipsoid} (hr : Reached (crossTask sol) n e) :
    ∃ e₀, (e₀ = sphere ∨ e₀ = crossShape) ∧ SameForms e e₀ := by
  have hset : Settled (crossTask sol) crossShape crossShape := by
    constructor <;> rw [sub_self, abs_zero]
    · show (0 : ℝ) ≤ 1 / 10 * (2 / 3); norm_num
    · show (0 : ℝ) ≤ 1 / 10 * (1 / 3); norm_num
  have huns : ¬ Settled (crossTask sol) sphere crossShape := by
    rintro ⟨h, -⟩
    have h' : |(2 / 3 : ℝ) - 1| ≤ 1 / 10 * 1 := h
    rw [abs_le] at h'
    linarith [h'.1]
  have hr1 : Reached (crossTask sol) 1 crossShape :=
    .step .sphere (by rw [cross_members sol (.inl rfl), crossTask_eq]; exact le_refl (6 : Int)) (cross_axes sol (.inl rfl)) huns
  match n with
  | 0 => exact ⟨sphere, .inl rfl, forms_reached hr .sphere⟩
  | 1 => exact ⟨_, .inr rfl, forms_reached hr hr1⟩
  | k + 2 =>
    exfalso
    obtain ⟨e₁, e₂, r1, p1, u1, -⟩ := reached_before hr 1 (by omega)
    have hs := forms_reached r1 hr1
    exact u1 ((settled_same hs.surfaces (forms_next hs p1 (cross_axes sol (.inr rfl))).surfaces).2 hset)

theorem cross_not_degenerate (sol : Solver) : ¬ Degenerate (crossTask sol) := by
  rintro ⟨n, e, hr, -, -, ⟨v, hv, hperp⟩ | ⟨hred, -⟩ | ⟨δ, -, hδ, -⟩⟩
  · obtain ⟨e₀, he₀, hs⟩ := cross_reached sol hr
    have hall : ∀ p ∈ (crossTask sol).pts, p ∈ members (crossTask sol) e := by
      intro p hp
      have := cross_members sol he₀
      rw [← this] at hp
      unfold members at hp ⊢
      rw [List.mem_filter] at hp ⊢
      refine ⟨hp.1, ?_⟩
      have h2 := hp.2
      simp only [decide_eq_true_eq] at h2 ⊢
      refine ⟨by rw [hs.surf]; exact h2.1, fun δ hδ _ => ?_⟩
      rw [crossTask_eq] at hδ
      cases hδ
    have hp : ∀ x y z : ℝ, (⟨![x, y, z], ![x, y, z], 1⟩ : Pt) ∈ (crossTask sol).pts → v 0 * (x - 5) + v 1 * (y - 5) + v 2 * (z - 5) = 0 := by
      intro x y z h
      have h1 := hperp _ (hall _ h)
      rw [crossTask_eq] at h1
      exact h1
    have h8 := hp 8 5 5 (by rw [crossTask_eq]; simp)
    have h7 := hp 5 7 5 (by rw [crossTask_eq]; simp)
    have h6 := hp 5 5 6 (by rw [crossTask_eq]; simp)
    refine hv (funext fun i => ?_)
    fin_cases i
    · show v 0 = 0; linarith
    · show v 1 = 0; linarith
    · show v 2 = 0; linarith
  · rw [crossTask_eq] at hred
    cases hred
  · rw [crossTask_eq] at hδ
    cases hδ

theorem cross_generic (sol : Solver) : Generic (crossTask sol) := by
  have cases := fun n e hr => cross_reached sol (n := n) (e := e) hr
  constructor
  · intro n e hr _ p hp
    obtain ⟨e₀, he₀, hs⟩ := cases n e hr
    rw [hs.surf]
    have := cross_radii sol he₀ p hp
    show _ ≠ (100 : ℝ) ^ 2
    intro hc
    linarith
  · intro n e hr _ δ hδ _ p hp
    cases hδ
  · intro n e e' hr _ hax
    obtain ⟨e₀, he₀, hs⟩ := cases n e hr
    refine InnerAxes.same (forms_next hs hax (cross_axes sol he₀)) fun δ hδ _ => ?_
    cases hδ
  · intro n e e' hr _ hax
    obtain ⟨e₀, he₀, hs⟩ := cases n e hr
    have hs' := forms_next hs hax (cross_axes sol he₀)
    rw [hs.q, hs.s, hs'.q, hs'.s]
    rcases he₀ with rfl | rfl
    · show |(2 / 3 : ℝ) - 1| ≠ 1 / 10 * 1 ∧ |(1 / 3 : ℝ) - 1| ≠ 1 / 10 * 1
      constructor <;> rw [abs_of_nonpos (by norm_num)] <;> norm_num
    · show |(2 / 3 : ℝ) - 2 / 3| ≠ 1 / 10 * (2 / 3) ∧ |(1 / 3 : ℝ) - 1 / 3| ≠ 1 / 10 * (1 / 3)
      constructor <;> rw [sub_self, abs_zero] <;> norm_num

/-- The cross with particles moved by `t` along various axes. -/
noncomputable def wobblyXyz (t : ℝ) : List (Vec ℝ) :=
  [![8 + t, 5, 5], ![2 - t, 5, 5], ![5 + t, 7, 5], ![5, 3, 5 + t], ![5, 5 - t, 6], ![5, 5, 4 + t]]

theorem wobbly_sensible (t : ℝ) (h0 : 0 ≤ t) (h1 : t ≤ 1) (r : ℝ) :
    Sensible (wobblyXyz t) [1 + t, 1, 1, 1, 1, 1] 20 [([0, 1, 2, 3, 4, 5], r)] := by
  refine ⟨rfl, by norm_num, ?_, ?_, by simp, ?_⟩
  · intro x hx a
    simp only [wobblyXyz, List.mem_cons, List.not_mem_nil, or_false] at hx
    rcases hx with rfl | rfl | rfl | rfl | rfl | rfl <;> fin_cases a <;> simp <;> first | (constructor <;> linarith) | norm_num
  · intro m hm
    simp only [List.mem_cons, List.not_mem_nil, or_false, or_self] at hm
    rcases hm with rfl | rfl <;> linarith
  · intro o ho i hi
    simp only [List.mem_singleton] at ho
    subst ho
    simp only [List.mem_cons, List.not_mem_nil, or_false] at hi
    simp only [wobblyXyz, List.length_cons, List.length_nil]
    omega

theorem cross_wobbly : crossXyz = wobblyXyz 0 := by
  unfold crossXyz wobblyXyz
  simp

theorem cross_sensible : Sensible crossXyz [1, 1, 1, 1, 1, 1] 20 [([0, 1, 2, 3, 4, 5], 100)] := by
  have := wobbly_sensible 0 le_rfl zero_le_one 100
  rw [add_zero] at this
  rw [cross_wobbly]
  exact this

theorem cross_approach : DataApproach atTop (fun i : ℕ => wobblyXyz (1 / ((i : ℝ) + 1))) (fun i : ℕ => [1 + 1 / ((i : ℝ) + 1), 1, 1, 1, 1, 1])
      (fun i : ℕ => [([0, 1, 2, 3, 4, 5], 100 + 1 / ((i : ℝ) + 1))]) crossXyz [1, 1, 1, 1, 1, 1] [([0, 1, 2, 3, 4, 5], 100)] := by
  have h0 : Tendsto (fun i : ℕ => 1 / ((i : ℝ) + 1)) atTop (𝓝 0) := tendsto_one_div_add_atTop_nhds_zero_nat
  refine ⟨fun i => rfl, fun k a => ?_, fun k => ?_, fun i => rfl, fun k => ?_⟩
  · have key : Continuous fun t : ℝ => (wobblyXyz t).getD k 0 a := by
      unfold wobblyXyz
      match k with
      | 0 | 1 | 2 | 3 | 4 | 5 => fin_cases a <;> simp <;> fun_prop
      | k + 6 => simpa using continuous_const
    rw [cross_wobbly]
    exact (key.tendsto 0).comp h0
  · match k with
    | 0 => simpa using h0.const_add 1
    | 1 | 2 | 3 | 4 | 5 | k + 6 => simp
  · match k with
    | 0 => simpa using h0.const_add 100
    | k + 1 => simp

theorem cross_bounds : ∀ p ∈ particlesOf crossXyz [1, 1, 1, 1, 1, 1] [0, 1, 2, 3, 4, 5], ∀ a, 2 ≤ p.pos a ∧ p.pos a ≤ 8 := by
  rw [cross_particles]
  intro p hp a
  simp only [List.mem_cons, List.not_mem_nil, or_false] at hp
  rcases hp with rfl | rfl | rfl | rfl | rfl | rfl <;> fin_cases a <;> norm_num

/-- A concrete case of `C183_catalogue`: as positions, masses and R200 approach those of the cross, every call returns a catalogue, with ratios as
close to 2/3 and 1/3 as one likes. -/
theorem C183_cross (h : ℝ) (hh : 0 < h) (sol : Solver) (hsol : GoodSolver sol) (choose : Nat → List Nat) (hch : ∀ n, 0 < n → ∃ j ∈ choose n, j < n)
    (limit : Nat) (ε : ℝ) (hε : 0 < ε) :
    ∀ᶠ i : ℕ in atTop, ∀ o', construct ⟨mpch h, Verif.Units.msunh10 h, 1, h, mpch h, Verif.Units.msunh10 h, 1⟩ ⟨wobblyXyz (1 / ((i : ℝ) + 1)),
        [1 + 1 / ((i : ℝ) + 1), 1, 1, 1, 1, 1], .nested [[0, 1, 2, 3, 4, 5]], .array [100 + 1 / ((i : ℝ) + 1)], 20, 6, .com⟩ = .ok o' →
      ∀ out, GetShapeCat ⟨mpch h, Verif.Units.msunh10 h, 1, h, mpch h, Verif.Units.msunh10 h, 1⟩ sol choose limit o' crossKatz false [0] out →
        ∃ e' q' s', out = .ok [[e']] ∧ e'.q = some q' ∧ e'.s = some s' ∧ |q' - 2 / 3| ≤ ε ∧ |s' - 1 / 3| ≤ ε := by
  have hpos : ∀ i : ℕ, 0 ≤ 1 / ((i : ℝ) + 1) := fun i => by positivity
  have hle : ∀ i : ℕ, 1 / ((i : ℝ) + 1) ≤ 1 := fun i => by
    rw [div_le_one (by positivity)]
    have : (0 : ℝ) ≤ i := by positivity
    linarith
  have hres : ∀ r : ℝ, resolved 6 [([0, 1, 2, 3, 4, 5], r)] = [([0, 1, 2, 3, 4, 5], r)] := by
    intro r
    simp [resolved]
  have hsel : GoodSelection [0] (resolved 6 [([0, 1, 2, 3, 4, 5], (100 : ℝ))]).length := by
    rw [hres]
    refine ⟨by simp, by simp, ?_⟩
    intro z hz
    simp only [List.mem_singleton] at hz
    subst hz; simp
  have hcfg : Cfg.Pos (⟨mpch h, Verif.Units.msunh10 h, 1, h, mpch h, Verif.Units.msunh10 h, 1⟩ : Cfg ℝ) := by
    have h1 := Verif.Units.mpch_pos hh
    have h2 := Verif.Units.msunh10_pos hh
    constructor <;> first | exact h1 | exact h2 | exact hh | exact one_pos
  obtain ⟨o, ho⟩ : ∃ o, construct ⟨mpch h, Verif.Units.msunh10 h, 1, h, mpch h, Verif.Units.msunh10 h, 1⟩ ⟨crossXyz, [1, 1, 1, 1, 1, 1],
      .nested ([([0, 1, 2, 3, 4, 5], (100 : ℝ))].map Prod.fst), .array ([([0, 1, 2, 3, 4, 5], (100 : ℝ))].map Prod.snd),
      20, 6, .com⟩ = .ok o :=
    ⟨_, construct_eq _ crossXyz _ 20 [([0, 1, 2, 3, 4, 5], 100)] 6 .com cross_sensible.lengths cross_sensible.objects⟩
  obtain ⟨out, hrun⟩ := C106_outcome_exists _ ⟨mpch h, Verif.Units.msunh10 h, 1, h, mpch h, Verif.Units.msunh10 h, 1⟩ crossXyz _ 20
    [([0, 1, 2, 3, 4, 5], 100)] 6 (by norm_num) .com cross_sensible sol choose limit o ho crossKatz false [0] hsel
  obtain ⟨e, rfl, h2, -, hq, hs', -⟩ := C106_cross 20 le_rfl h hh sol hsol choose hch limit o ho out hrun
  have := C183_catalogue _ _ hcfg hcfg rfl crossXyz _ 20 [([0, 1, 2, 3, 4, 5], 100)] 6 (by norm_num) cross_sensible (by simp) _ _ _
    (fun i => wobbly_sensible _ (hpos i) (hle i) (100 + 1 / ((i : ℝ) + 1))) (fun i => by simpa using by positivity) cross_approach sol hsol choose hch limit
    crossKatz (by show (1 / 10 : ℝ) < 1; norm_num) (by simp [crossKatz]) false [0] hsel (fun z obj hz hob => by
      simp only [List.mem_singleton] at hz
      subst hz
      rw [hres] at hob
      obtain rfl := Option.some.inj hob
      refine ⟨fun p hp q hq a => ?_, ?_, fun hred => (by cases hred), fun b hb => ?_⟩
      · have h1 := cross_bounds p hp a
        have h2 := cross_bounds q hq a
        rw [abs_lt]
        constructor <;> linarith
      · rw [cross_particles]
        refine ⟨⟨![8, 5, 5], 1⟩, by simp, ⟨![2, 5, 5], 1⟩, by simp, fun hc => ?_⟩
        have := congrFun hc 0
        norm_num at this
      · obtain rfl : b = 0 := by
          have : b < 1 := hb
          omega
        have hw : wantedVolume crossKatz false 100 (6 * mpch h / mpch h) 0 = (100, none) := by
          unfold wantedVolume crossKatz
          simp
        rw [hw]
        exact cross_generic sol) o ho [[e]] hrun ε hε
  filter_upwards [this] with i hi o' ho' out' hout'
  obtain ⟨res', rfl, hl, hrows⟩ := hi o' ho' out' hout'
  match res', hl with
  | [row'], _ =>
    obtain ⟨hl', hent⟩ := hrows 0 [e] row' rfl rfl
    match row', hl' with
    | [e'], _ =>
      obtain ⟨d, q, s, d', q', s', -, g2, g3, -, g5, g6, -, g8, g9, -⟩ := (hent 0 e e' rfl rfl).shape h2
      rw [hq] at g2
      rw [hs'] at g3
      obtain rfl := Option.some.inj g2
      obtain rfl := Option.some.inj g3
      exact ⟨e', q', s', rfl, g5, g6, g8, g9⟩

end Verif.Api
