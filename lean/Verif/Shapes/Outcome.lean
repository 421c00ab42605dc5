import Verif.Shapes.Props
import Verif.Shapes.Flat

/-!
# Why a shape is classified, unclassified, or raises

The iteration as a relation between ellipsoids, independent of the model; and the theorem that every
run of the algorithm ends in one of three ways, each with its reason (C105).
-/

namespace Verif.Shapes

/-! ## Specification -/

/-- Axes and axis ratios. -/
structure Ellipsoid where
  major : Vec ℝ
  inter : Vec ℝ
  minor : Vec ℝ
  q : ℝ
  s : ℝ

/-- The first guess. -/
def sphere : Ellipsoid := ⟨![1, 0, 0], ![0, 1, 0], ![0, 0, 1], 1, 1⟩

open Classical in
/-- The particles inside the ellipsoid (or shell) of the given shape. -/
noncomputable def members (cfg : Config) (e : Ellipsoid) : List Pt :=
  cfg.pts.filter fun p => decide (Inside cfg e.major e.inter e.minor e.q e.s p)

/-- Their shape tensor. -/
noncomputable def tensorOf (cfg : Config) (e : Ellipsoid) : Fin 3 → Fin 3 → ℝ :=
  massTensor cfg (fun p => if cfg.reduced then ellipsoidal2 e.major e.inter e.minor e.q e.s (rel cfg p)
    else 1) (members cfg e)

/-- `e'` has the principal axes and axis ratios of the particles inside `e`. -/
structure PrincipalAxes (cfg : Config) (e e' : Ellipsoid) : Prop where
  axes : Orthonormal e'.major e'.inter e'.minor
  lengths : ∃ a b c : ℝ, 0 < c ∧ c ≤ b ∧ b ≤ a ∧ e'.q = b / a ∧ e'.s = c / a ∧
    IsEigenvector (tensorOf cfg e) (a ^ 2) e'.major ∧
    IsEigenvector (tensorOf cfg e) (b ^ 2) e'.inter ∧
    IsEigenvector (tensorOf cfg e) (c ^ 2) e'.minor

/-- The ratios have changed by no more than the tolerance. -/
def Settled (cfg : Config) (e e' : Ellipsoid) : Prop :=
  |e'.q - e.q| ≤ cfg.tol * e.q ∧ |e'.s - e.s| ≤ cfg.tol * e.s

/-- `e` is the shape after `n` iterations, none of which settled and each of which had at least
`IT_MIN` particles. -/
inductive Reached (cfg : Config) : Nat → Ellipsoid → Prop
  | sphere : Reached cfg 0 sphere
  | step {n : Nat} {e e' : Ellipsoid} (h : Reached cfg n e)
      (enough : cfg.itMin ≤ ((members cfg e).length : Int)) (axes : PrincipalAxes cfg e e')
      (unsettled : ¬ Settled cfg e e') : Reached cfg (n + 1) e'

/-- The shape `m` is the result of an iteration that settled, after fewer than `IT_WALL` that did not. -/
def Classified (cfg : Config) (m : Morph) : Prop :=
  ∃ n e e', Reached cfg n e ∧ (n : Int) < cfg.wall ∧ cfg.itMin ≤ ((members cfg e).length : Int) ∧
    PrincipalAxes cfg e e' ∧ Settled cfg e e' ∧
    m = ⟨cfg.d, e'.q, e'.s, e'.major, e'.inter, e'.minor⟩

/-- `IT_WALL` iterations did not settle, or one of them met fewer than `IT_MIN` particles. -/
def Unclassifiable (cfg : Config) : Prop :=
  ∃ n e, Reached cfg n e ∧ (cfg.wall ≤ (n : Int) ∨ ((members cfg e).length : Int) < cfg.itMin)

/-- Some iteration met at least `IT_MIN` particles which lie in a plane through the center; or, for the
reduced tensor, a particle exactly at the center; or, for shells, the inner boundary of the next shell
has a vanishing semi-axis. -/
def Degenerate (cfg : Config) : Prop :=
  ∃ n e, Reached cfg n e ∧ (n : Int) < cfg.wall ∧ cfg.itMin ≤ ((members cfg e).length : Int) ∧
    ((∃ v : Vec ℝ, v ≠ 0 ∧ ∀ p ∈ members cfg e, dot v (fun i => p.src i - cfg.srcCenter i) = 0) ∨
     (cfg.reduced = true ∧ ∃ p ∈ members cfg e, rel cfg p = 0) ∨
     ∃ δ e', cfg.deltaD = some δ ∧ cfg.d ≠ δ ∧ PrincipalAxes cfg e e' ∧
       (e'.q * cfg.d = δ ∨ e'.s * cfg.d = δ))

/-! ## One iteration -/

/-- The state belongs to the ellipsoid. -/
structure At (cfg : Config) (st : PState) (e : Ellipsoid) : Prop where
  desc : Described cfg st e.major e.inter e.minor
  q : st.q = e.q
  s : st.s = e.s

theorem At.sel {cfg : Config} {st : PState} {e : Ellipsoid} (h : At cfg st e) :
    st.sel = (members cfg e).map
      fun p => (p, √(ellipsoidal2 e.major e.inter e.minor e.q e.s (rel cfg p))) := by
  have := h.desc.sel
  rw [h.q, h.s] at this
  exact this

theorem At.length {cfg : Config} {st : PState} {e : Ellipsoid} (h : At cfg st e) :
    st.sel.length = (members cfg e).length := by
  rw [h.sel, List.length_map]

theorem At.tensor {cfg : Config} {st : PState} {e : Ellipsoid} (h : At cfg st e) :
    selTensor cfg st.sel = tensorOf cfg e := by
  have := selTensor_described h.desc
  rw [h.q, h.s] at this
  exact this

theorem At.fst {cfg : Config} {st : PState} {e : Ellipsoid} (h : At cfg st e) :
    st.sel.map Prod.fst = members cfg e := by
  rw [h.sel, List.map_map]
  exact (List.map_congr_left fun p _ => rfl).trans (List.map_id _)

theorem start_at (cfg : Config) (morph : Morph) : At cfg (pureStart cfg morph) sphere :=
  ⟨start_described cfg morph, rfl, rfl⟩

/-- A completed iteration leads to the principal axes; it settles exactly if the error is within the
tolerance. -/
theorem iterate_at {cfg : Config} {st st' : PState} {e : Ellipsoid}
    (hsol : GoodSolver cfg.solver) (hm : ∀ p ∈ cfg.pts, 0 ≤ p.m) (hd : At cfg st e)
    (h : pureIterate cfg st = some st') :
    ∃ e', At cfg st' e' ∧ PrincipalAxes cfg e e' ∧ st'.iteration = st.iteration + 1 ∧
      (st'.err ≤ cfg.tol ↔ Settled cfg e e') ∧
      st'.morph = ⟨cfg.d, e'.q, e'.s, e'.major, e'.inter, e'.minor⟩ := by
  obtain ⟨hd', hit, hrad, hq, hs, ⟨a, b, c, hc, hcb, hba, ea, eb, e1, e2, e3⟩, hconv⟩ :=
    iterate_described hsol hm hd.desc h
  refine ⟨⟨st'.morph.major, st'.morph.inter, st'.morph.minor, st'.q, st'.s⟩, ⟨hd', rfl, rfl⟩,
    ⟨hd'.frame, a, b, c, hc, hcb, hba, ea, eb, ?_⟩, hit, ?_, ?_⟩
  · rw [hd.tensor] at e1 e2 e3
    exact ⟨e1, e2, e3⟩
  · constructor
    · intro herr
      have := hconv _ herr
      rw [hd.q, hd.s] at this
      exact this
    · rintro ⟨h1, h2⟩
      unfold pureIterate at h
      simp only [Option.bind_eq_bind, Option.bind_eq_some_iff] at h
      obtain ⟨t, ht, ⟨qn, sn, err, maj, int, min⟩, hdg, rs, hrs, tests, hts, h⟩ := h
      obtain rfl := Option.some.inj h
      unfold diagonalise at hdg
      simp only [Option.bind_eq_bind, Option.bind_eq_some_iff] at hdg
      obtain ⟨q2, hq2, s2, hs2, eq, heq, es, hes, major', hmaj, inter', hint, minor', hmin, h⟩ := hdg
      simp only [Option.some.injEq, Prod.mk.injEq] at h
      obtain ⟨rfl, rfl, rfl, rfl, rfl, rfl⟩ := h
      obtain ⟨-, rfl⟩ := cdiv_some heq
      obtain ⟨-, rfl⟩ := cdiv_some hes
      obtain ⟨hs0, hq0⟩ := hd.desc.ratios
      simp only at h1 h2 ⊢
      rw [← hd.q] at h1
      rw [← hd.s] at h2
      exact max_le ((div_le_iff₀ hq0).2 h1) ((div_le_iff₀ hs0).2 h2)
  · cases hmo : st'.morph with
    | mk d q s ma i mi =>
      rw [hmo] at hrad hq hs
      simp only at hrad hq hs ⊢
      rw [hrad, hq, hs]

theorem pureTensor_isSome' {cfg : Config} {sel : Sel} (hr : cfg.reduced = true → ∀ pr ∈ sel, pr.2 ≠ 0)
    (hm : ∀ pr ∈ sel, 0 < pr.1.m) : ∃ t, pureTensor cfg sel = some t := by
  have hpos : sel ≠ [] → (sel.map fun pr => pr.1.m).sum ≠ 0 := by
    intro hne h0
    obtain ⟨pr, hpr⟩ := List.exists_mem_of_ne_nil _ hne
    have := sum_zero_of_nonneg sel _ (fun a ha => (hm a ha).le) h0 pr hpr
    exact (hm pr hpr).ne' this
  have entry : ∀ i j, ∃ v, pureEntry cfg (sel.map fun pr => pr.1.m).sum sel i j = some v := by
    intro i j
    rw [pureEntry_closed, if_pos]
    · exact ⟨_, rfl⟩
    · intro pr hpr
      have h0 := hpos (List.ne_nil_of_mem hpr)
      unfold tensorTerm
      rw [cdiv_of_ne]
      · rfl
      · split
        · rename_i h1
          exact mul_ne_zero h0 (pow_ne_zero 2 (hr h1 pr hpr))
        · exact h0
  obtain ⟨_, e0⟩ := entry 0 0
  obtain ⟨_, e1⟩ := entry 1 0
  obtain ⟨_, e2⟩ := entry 1 1
  obtain ⟨_, e3⟩ := entry 2 0
  obtain ⟨_, e4⟩ := entry 2 1
  obtain ⟨_, e5⟩ := entry 2 2
  unfold pureTensor
  simp only [e0, e1, e2, e3, e4, e5]
  exact ⟨_, rfl⟩

theorem ellipsoidal2_zero {major inter minor : Vec ℝ} {q s : ℝ} {y : Vec ℝ} (hq : q ≠ 0) (hs : s ≠ 0)
    (ho : Orthonormal major inter minor) (h : ellipsoidal2 major inter minor q s y = 0) : y = 0 := by
  unfold ellipsoidal2 at h
  have h1 : dot major y ^ 2 = 0 := by
    have := sq_nonneg (dot major y)
    have h2 : 0 ≤ dot inter y ^ 2 / q ^ 2 := by positivity
    have h3 : 0 ≤ dot minor y ^ 2 / s ^ 2 := by positivity
    linarith
  have h2 : dot inter y ^ 2 / q ^ 2 = 0 := by
    have := sq_nonneg (dot major y)
    have h2 : 0 ≤ dot inter y ^ 2 / q ^ 2 := by positivity
    have h3 : 0 ≤ dot minor y ^ 2 / s ^ 2 := by positivity
    linarith
  have h3 : dot minor y ^ 2 / s ^ 2 = 0 := by linarith
  refine ho.complete (pow_eq_zero_iff two_ne_zero |>.1 h1) ?_ ?_
  · exact pow_eq_zero_iff two_ne_zero |>.1 ((div_eq_zero_iff.1 h2).resolve_right (pow_ne_zero 2 hq))
  · exact pow_eq_zero_iff two_ne_zero |>.1 ((div_eq_zero_iff.1 h3).resolve_right (pow_ne_zero 2 hs))

/-- An iteration raises only for a reason. -/
theorem iterate_none {cfg : Config} {st : PState} {e : Ellipsoid}
    (hsol : GoodSolver cfg.solver) (hm : ∀ p ∈ cfg.pts, 0 < p.m) (hd : At cfg st e)
    (h : pureIterate cfg st = none) :
    (∃ v : Vec ℝ, v ≠ 0 ∧ ∀ p ∈ members cfg e, dot v (fun i => p.src i - cfg.srcCenter i) = 0) ∨
     (cfg.reduced = true ∧ ∃ p ∈ members cfg e, rel cfg p = 0) ∨
     ∃ δ e', cfg.deltaD = some δ ∧ cfg.d ≠ δ ∧ PrincipalAxes cfg e e' ∧
       (e'.q * cfg.d = δ ∨ e'.s * cfg.d = δ) := by
  obtain ⟨hs0, hq0⟩ := hd.desc.ratios
  by_cases hcentre : cfg.reduced = true ∧ ∃ p ∈ members cfg e, rel cfg p = 0
  · exact .inr (.inl hcentre)
  have hw : cfg.reduced = true → ∀ pr ∈ st.sel, pr.2 ≠ 0 := by
    intro hr pr hpr h0
    rw [hd.sel] at hpr
    obtain ⟨p, hp, rfl⟩ := List.mem_map.1 hpr
    apply hcentre
    refine ⟨hr, p, hp, ?_⟩
    have := (Real.sqrt_eq_zero (ellipsoidal2_nonneg _ _ _ _ _ _)).1 h0
    exact ellipsoidal2_zero (by rw [← hd.q]; exact hq0.ne') (by rw [← hd.s]; exact hs0.ne')
      hd.desc.frame this
  have hmsel : ∀ pr ∈ st.sel, 0 < pr.1.m := by
    intro pr hpr
    rw [hd.sel] at hpr
    obtain ⟨p, hp, rfl⟩ := List.mem_map.1 hpr
    exact hm p (List.mem_of_mem_filter hp)
  have hwpos : ∀ pr ∈ st.sel, 0 < weight cfg pr.2 := by
    intro pr hpr
    unfold weight
    split
    · rename_i hr
      have := hw hr pr hpr
      positivity
    · exact one_pos
  obtain ⟨t, ht⟩ := pureTensor_isSome' hw hmsel
  have hts := pureTensor_some ht
  have hE := hsol t (by rw [hts]; exact selTensor_symm cfg _)
  by_cases hv : ∃ k, (cfg.solver t).val k = 0
  · left
    obtain ⟨k, hk⟩ := hv
    refine ⟨(cfg.solver t).vec k, hE.nonzero k, ?_⟩
    have hz : ∀ i, t i 0 * (cfg.solver t).vec k 0 + t i 1 * (cfg.solver t).vec k 1 +
        t i 2 * (cfg.solver t).vec k 2 = 0 := by
      intro i; rw [hE.eigen k i, hk, zero_mul]
    have hform := selTensor_form cfg st.sel ((cfg.solver t).vec k)
    rw [← hts, hz 0, hz 1, hz 2] at hform
    simp only [mul_zero, add_zero] at hform
    intro p hp
    rw [← hd.fst] at hp
    obtain ⟨pr, hpr, rfl⟩ := List.mem_map.1 hp
    have hM : (st.sel.map fun pr => pr.1.m).sum ≠ 0 := by
      intro h0
      exact (hmsel pr hpr).ne' (sum_zero_of_nonneg _ _ (fun a ha => (hmsel a ha).le) h0 pr hpr)
    have hsum := (div_eq_zero_iff.1 hform.symm).resolve_right hM
    have hterm := sum_zero_of_nonneg _ _ (fun a ha => by
      have := hmsel a ha
      have := hwpos a ha
      positivity) hsum pr hpr
    have hterm := (div_eq_zero_iff.1 hterm).resolve_right (hwpos pr hpr).ne'
    exact pow_eq_zero_iff (two_ne_zero) |>.1 ((mul_eq_zero.1 hterm).resolve_left (hmsel pr hpr).ne')
  · right; right
    push Not at hv
    have hpsd := selTensor_psd cfg st.sel (fun pr hpr => (hmsel pr hpr).le)
    rw [← hts] at hpsd
    have hpos : ∀ k, 0 < (cfg.solver t).val k := by
      intro k
      have hp := hpsd ((cfg.solver t).vec k)
      rw [hE.eigen k 0, hE.eigen k 1, hE.eigen k 2] at hp
      have hd := dot_self_pos (hE.nonzero k)
      have : 0 ≤ (cfg.solver t).val k * dot ((cfg.solver t).vec k) ((cfg.solver t).vec k) := by
        unfold dot; linarith
      have h1 : 0 ≤ (cfg.solver t).val k := nonneg_of_mul_nonneg_left this hd
      exact lt_of_le_of_ne h1 (hv k).symm
    have hq' : √((cfg.solver t).val 1 / (cfg.solver t).val 2) ≠ 0 :=
      (Real.sqrt_pos.2 (div_pos (hpos 1) (hpos 2))).ne'
    have hs' : √((cfg.solver t).val 0 / (cfg.solver t).val 2) ≠ 0 :=
      (Real.sqrt_pos.2 (div_pos (hpos 0) (hpos 2))).ne'
    have hdg : ∃ err maj int min, diagonalise cfg t st.q st.s =
        some (√((cfg.solver t).val 1 / (cfg.solver t).val 2),
          √((cfg.solver t).val 0 / (cfg.solver t).val 2), err, maj, int, min) := by
      unfold diagonalise
      simp only [cdiv_of_ne (hpos 2).ne', cdiv_of_ne hq0.ne', cdiv_of_ne hs0.ne',
        normalise_axis _ (hE.nonzero 2), normalise_axis _ (hE.nonzero 1),
        normalise_axis _ (hE.nonzero 0), Option.bind_eq_bind, Option.bind_some]
      exact ⟨_, _, _, _, rfl⟩
    obtain ⟨err, maj, int, min, hdg⟩ := hdg
    obtain ⟨ho, ⟨a, b, c, ha, hcb, hba, hc, eqb, eqc, e1, e2, e3⟩, -⟩ :=
      diagonalise_some hq0 hs0 hE hpsd hdg
    have hcpos : 0 < c := by
      rcases hc.lt_or_eq with h | h
      · exact h
      · exact absurd (eqc.trans (by rw [← h, zero_div])) hs'
    generalize √((cfg.solver t).val 1 / (cfg.solver t).val 2) = qn at *
    generalize √((cfg.solver t).val 0 / (cfg.solver t).val 2) = sn at *
    have hprin : PrincipalAxes cfg e ⟨maj, int, min, qn, sn⟩ := by
      refine ⟨ho, a, b, c, hcpos, hcb, hba, eqb, eqc, ?_⟩
      rw [← hd.tensor, ← hts]
      exact ⟨e1, e2, e3⟩
    unfold pureIterate at h
    rw [ht] at h
    simp only [Option.bind_eq_bind, Option.bind_some] at h
    rw [hdg] at h
    simp only [Option.bind_some] at h
    have hell : ∀ y, ∃ r, ellRadius2 qn sn y = some r := by
      intro y
      unfold ellRadius2
      rw [cdiv_of_ne (pow_ne_zero 2 hq'), cdiv_of_ne (pow_ne_zero 2 hs')]
      exact ⟨_, rfl⟩
    obtain ⟨rs, hrs⟩ := mapM_isSome (fun y => (ellRadius2 qn sn y).map Real.sqrt)
      (cfg.pts.map (toPrinc cfg maj int min)) (fun y _ => by
          obtain ⟨r, hr⟩ := hell y
          rw [hr]; simp)
    rw [hrs] at h
    simp only [Option.bind_some] at h
    cases hbs : (cfg.pts.map (toPrinc cfg maj int min)).mapM (laterTest cfg qn sn) with
    | some bs => rw [hbs] at h; simp at h
    | none =>
      obtain ⟨y, -, hy⟩ := mapM_none _ _ hbs
      obtain ⟨r, hr⟩ := hell y
      unfold laterTest at hy
      rw [hr] at hy
      simp only [Option.bind_eq_bind, Option.bind_some] at hy
      split at hy
      · cases hδ : cfg.deltaD with
        | none => rw [hδ] at hy; simp at hy
        | some δ =>
          rw [hδ] at hy
          simp only at hy
          by_cases hdδ : cfg.d = δ
          · rw [if_pos hdδ] at hy; simp at hy
          · rw [if_neg hdδ] at hy
            refine ⟨δ, ⟨maj, int, min, qn, sn⟩, rfl, hdδ, hprin, ?_⟩
            by_contra hne
            push Not at hne
            unfold innerTest at hy
            rw [cdiv_of_ne (pow_ne_zero 2 (sub_ne_zero.2 hdδ)),
              cdiv_of_ne (pow_ne_zero 2 (sub_ne_zero.2 hne.1)),
              cdiv_of_ne (pow_ne_zero 2 (sub_ne_zero.2 hne.2))] at hy
            simp at hy
      · simp at hy

/-! ## All iterations -/

theorem pureStep_reason {cfg : Config} {st : PState} {r : Option Morph}
    (h : pureStep cfg st = .stop r) :
    (st.err ≤ cfg.tol ∧ r = some st.morph) ∨
    (cfg.tol < st.err ∧ (cfg.wall < (st.iteration : Int) ∨ (st.sel.length : Int) < cfg.itMin) ∧
      r = some .zero) ∨
    (cfg.tol < st.err ∧ (st.iteration : Int) ≤ cfg.wall ∧ cfg.itMin ≤ (st.sel.length : Int) ∧
      pureIterate cfg st = none ∧ r = none) := by
  unfold pureStep at h
  split at h
  · rename_i he
    split at h
    · rename_i hw; cases h; exact .inr (.inl ⟨he, .inl hw, rfl⟩)
    · rename_i hw
      split at h
      · rename_i hm; cases h; exact .inr (.inl ⟨he, .inr hm, rfl⟩)
      · rename_i hm
        cases hp : pureIterate cfg st with
        | none => rw [hp] at h; cases h; exact .inr (.inr ⟨he, not_lt.1 hw, not_lt.1 hm, rfl, rfl⟩)
        | some st'' => rw [hp] at h; cases h
  · rename_i he
    cases h
    exact .inl ⟨not_lt.1 he, rfl⟩

theorem pureRun_outcome (fuel : Nat) (cfg : Config) (morph : Morph) (r : Option Morph)
    (hsol : GoodSolver cfg.solver) (hm : ∀ p ∈ cfg.pts, 0 < p.m) (htol : cfg.tol < 1)
    (h : pureRun fuel cfg morph = some r) :
    (∃ m, r = some m ∧ Classified cfg m) ∨ (r = some .zero ∧ Unclassifiable cfg) ∨
      (r = none ∧ Degenerate cfg) := by
  refine loop_ind (pureStep cfg)
    (fun st => ∃ e, At cfg st e ∧ 1 ≤ st.iteration ∧
      ((cfg.tol < st.err ∧ Reached cfg (st.iteration - 1) e) ∨
        (st.err ≤ cfg.tol ∧ Classified cfg st.morph)))
    (fun r => (∃ m, r = some m ∧ Classified cfg m) ∨ (r = some .zero ∧ Unclassifiable cfg) ∨
      (r = none ∧ Degenerate cfg)) ?_ ?_ fuel _ _ ?_ h
  · rintro st st' ⟨e, hat, hpos, hI⟩ hgo
    obtain ⟨hmin, hwall, hit⟩ := pureStep_go hgo
    have herr : cfg.tol < st.err := by
      by_contra hle
      unfold pureStep at hgo
      rw [if_neg hle] at hgo
      cases hgo
    obtain ⟨-, hreach⟩ := hI.resolve_right fun hx => absurd hx.1 (not_le.2 herr)
    obtain ⟨e', hat', hprin, hiter, hset, hmorph⟩ :=
      iterate_at hsol (fun p hp => (hm p hp).le) hat hit
    rw [hat.length] at hmin
    refine ⟨e', hat', by omega, ?_⟩
    by_cases hs : Settled cfg e e'
    · right
      exact ⟨hset.2 hs, st.iteration - 1, e, e', hreach, by omega, hmin, hprin, hs, hmorph⟩
    · left
      refine ⟨not_le.1 fun hx => hs (hset.1 hx), ?_⟩
      have : st'.iteration - 1 = st.iteration - 1 + 1 := by omega
      rw [this]
      exact .step hreach hmin hprin hs
  · rintro st r ⟨e, hat, hpos, hI⟩ hstop
    rcases pureStep_reason hstop with ⟨he, rfl⟩ | ⟨he, hwhy, rfl⟩ | ⟨he, hwall, hmin, hnone, rfl⟩
    · left
      exact ⟨_, rfl, (hI.resolve_left fun hx => absurd hx.1 (not_lt.2 he)).2⟩
    · right; left
      obtain ⟨-, hreach⟩ := hI.resolve_right fun hx => absurd hx.1 (not_le.2 he)
      rw [hat.length] at hwhy
      refine ⟨rfl, _, e, hreach, hwhy.imp ?_ id⟩
      intro hw; omega
    · right; right
      obtain ⟨-, hreach⟩ := hI.resolve_right fun hx => absurd hx.1 (not_le.2 he)
      rw [hat.length] at hmin
      exact ⟨rfl, _, e, hreach, by omega, hmin, iterate_none hsol hm hat hnone⟩
  · exact ⟨sphere, start_at cfg morph, le_refl 1, .inl ⟨htol, .sphere⟩⟩

/-! ## C105 -/

/-- C105. With positive masses and a tolerance below 1, every run of the algorithm ends in one of three
ways.  Either it returns a shape: then some iteration settled, after fewer than `IT_WALL` that did not,
all of them with at least `IT_MIN` particles, and the shape consists of the principal axes and ratios of
that iteration.  Or it returns zeros (reported as NaN): then `IT_WALL` iterations did not settle, or one
of them met fewer than `IT_MIN` particles.  Or it raises: then an iteration met a degenerate set of
particles. -/
theorem C105_outcome (cfg : Config) (morph : Morph) (sc : Scratch) (hf : Fits cfg sc)
    (hsol : GoodSolver cfg.solver) (hm : ∀ p ∈ cfg.pts, 0 < p.m) (htol : cfg.tol < 1)
    (fuel : Nat) (hfuel : cfg.wall.toNat + 1 ≤ fuel) :
    (∃ m sc', runAlgo fuel cfg morph sc = some (some (m, sc')) ∧ Classified cfg m) ∨
    (∃ sc', runAlgo fuel cfg morph sc = some (some (.zero, sc')) ∧ Unclassifiable cfg) ∨
    (runAlgo fuel cfg morph sc = some none ∧ Degenerate cfg) := by
  obtain ⟨r, hr⟩ := C34_terminates cfg morph sc
  have hrun := hr fuel hfuel
  have hp := (runAlgo_pure fuel cfg morph sc hf.1 hf.2).1
  rw [hrun] at hp ⊢
  rcases pureRun_outcome fuel cfg morph _ hsol hm htol hp.symm with ⟨m, e, hc⟩ | ⟨e, hc⟩ | ⟨e, hc⟩
  · obtain ⟨⟨m', sc'⟩, rfl, rfl⟩ := Option.map_eq_some_iff.1 e
    exact .inl ⟨m', sc', rfl, hc⟩
  · obtain ⟨⟨m', sc'⟩, rfl, e'⟩ := Option.map_eq_some_iff.1 e
    obtain rfl : m' = .zero := e'
    exact .inr (.inl ⟨sc', rfl, hc⟩)
  · rw [Option.map_eq_none_iff] at e
    rw [e]
    exact .inr (.inr ⟨rfl, hc⟩)

/-- The cross (six particles at ±3, ±2, ±1 on the axes) is classified with ratios 2/3 and 1/3. -/
example (sol : Solver) (hsol : GoodSolver sol) :
    ∃ m, Classified (crossCfg sol) m ∧ m.d = 100 ∧ m.q = 2 / 3 ∧ m.s = 1 / 3 := by
  obtain ⟨x, y, z, hx, hy, hz, hrun⟩ := cross_run sol hsol .zero
  rcases pureRun_outcome 3 (crossCfg sol) .zero _ hsol (by simp [crossCfg, crossPts])
    (by norm_num [crossCfg]) (hrun 3 (le_refl _)) with ⟨m, e, hc⟩ | ⟨e, -⟩ | ⟨e, -⟩
  · exact ⟨m, hc, by rw [← Option.some.inj e], by rw [← Option.some.inj e], by rw [← Option.some.inj e]⟩
  · have := congrArg Morph.d (Option.some.inj e)
    simp [Morph.zero] at this
  · cases e

end Verif.Shapes
