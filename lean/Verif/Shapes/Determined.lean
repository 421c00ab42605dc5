import Verif.Shapes.Stratified

/-!
# The iteration is determined by its data, for ellipsoids and for shells

Used for the stability of local shapes (C180).
-/

namespace Verif.Shapes

/-! ## Specification -/

/-- Squared distance with respect to the inner boundary of the shell of thickness `δ`, whose semi-axes are `d-δ`, `qd-δ`, `sd-δ`. -/
noncomputable def inner2 (d δ : ℝ) (e : Ellipsoid) (w : Vec ℝ) : ℝ :=
  dot e.major w ^ 2 / (d - δ) ^ 2 + dot e.inter w ^ 2 / (e.q * d - δ) ^ 2 + dot e.minor w ^ 2 / (e.s * d - δ) ^ 2

/-- No semi-axis of the inner boundary vanishes. -/
def InnerAxes (cfg : Config) (e : Ellipsoid) : Prop :=
  ∀ δ, cfg.deltaD = some δ → cfg.d ≠ δ → e.q * cfg.d ≠ δ ∧ e.s * cfg.d ≠ δ

/-! ## Proof -/

theorem inside_iff (cfg : Config) (e : Ellipsoid) (p : Pt) : Inside cfg e.major e.inter e.minor e.q e.s p ↔
    ellipsoidal2 e.major e.inter e.minor e.q e.s (rel cfg p) < cfg.d ^ 2 ∧
      ∀ δ, cfg.deltaD = some δ → cfg.d ≠ δ → 1 ≤ inner2 cfg.d δ e (rel cfg p) := Iff.rfl

/-- Ellipsoids with the same ratios and the same quadratic forms made of the ratios. -/
structure SameForms (e e' : Ellipsoid) : Prop where
  q : e.q = e'.q
  s : e.s = e'.s
  form : ∀ (f : ℝ → ℝ) (v : Vec ℝ), f 1 * dot e.major v ^ 2 + f e.q * dot e.inter v ^ 2 + f e.s * dot e.minor v ^ 2 =
    f 1 * dot e'.major v ^ 2 + f e'.q * dot e'.inter v ^ 2 + f e'.s * dot e'.minor v ^ 2

theorem SameForms.surf {e e' : Ellipsoid} (h : SameForms e e') (v : Vec ℝ) :
    ellipsoidal2 e.major e.inter e.minor e.q e.s v = ellipsoidal2 e'.major e'.inter e'.minor e'.q e'.s v := by
  have := h.form (fun t => 1 / t ^ 2) v
  unfold ellipsoidal2
  simp only [one_pow, div_one, one_mul] at this
  rw [div_eq_mul_one_div, div_eq_mul_one_div (dot e.minor v ^ 2), div_eq_mul_one_div (dot e'.inter v ^ 2), div_eq_mul_one_div (dot e'.minor v ^ 2)]
  linarith

theorem SameForms.inner {e e' : Ellipsoid} (h : SameForms e e') (d δ : ℝ) (v : Vec ℝ) : inner2 d δ e v = inner2 d δ e' v := by
  have := h.form (fun t => 1 / (t * d - δ) ^ 2) v
  unfold inner2
  simp only [one_mul] at this
  simp only [div_eq_mul_one_div (dot _ v ^ 2)]
  linarith

theorem SameForms.surfaces {e e' : Ellipsoid} (h : SameForms e e') : SameSurfaces e e' := ⟨h.q, h.s, h.surf⟩

variable {cfg : Config}

theorem SameForms.members {e e' : Ellipsoid} (h : SameForms e e') : Shapes.members cfg e = Shapes.members cfg e' := by
  unfold Shapes.members
  apply List.filter_congr
  intro p _
  refine decide_eq_decide.2 ?_
  rw [inside_iff, inside_iff, h.surf]
  simp only [h.inner]

theorem SameForms.tensor {e e' : Ellipsoid} (h : SameForms e e') : tensorOf cfg e = tensorOf cfg e' := by
  unfold tensorOf
  rw [h.members]
  congr 1
  funext p
  rw [h.surf]

theorem Principal.forms {t : Fin 3 → Fin 3 → ℝ} (hsym : ∀ i j, t i j = t j i) {a b c : ℝ}
    {x y z x' y' z' : Vec ℝ} (h : Principal t a b c x y z) (h' : Principal t a b c x' y' z') (f : ℝ → ℝ) (v : Vec ℝ) :
    f 1 * dot x v ^ 2 + f (b / a) * dot y v ^ 2 + f (c / a) * dot z v ^ 2 =
      f 1 * dot x' v ^ 2 + f (b / a) * dot y' v ^ 2 + f (c / a) * dot z' v ^ 2 := by
  have hc := h.pos
  have hb : 0 < b := h.pos.trans_le h.cb
  have ha : 0 < a := hb.trans_le h.ba
  have hk := (spectral t hsym ![c ^ 2, b ^ 2, a ^ 2] ![c ^ 2, b ^ 2, a ^ 2] ![z', y', x'] ![z, y, x]
    (frame_reversed h'.axes) (frame_reversed h.axes)
    (by intro k; fin_cases k; exacts [h'.minor, h'.inter, h'.major])
    (by intro k; fin_cases k; exacts [h.minor, h.inter, h.major])
    ⟨pow_le_pow_left₀ hc.le h.cb 2, pow_le_pow_left₀ hb.le h.ba 2⟩
    ⟨pow_le_pow_left₀ hc.le h'.cb 2, pow_le_pow_left₀ hb.le h'.ba 2⟩).2 (fun l => f (√l / a)) v
  have hk' : f (√(c ^ 2) / a) * dot z v ^ 2 + f (√(b ^ 2) / a) * dot y v ^ 2 + f (√(a ^ 2) / a) * dot x v ^ 2 =
      f (√(c ^ 2) / a) * dot z' v ^ 2 + f (√(b ^ 2) / a) * dot y' v ^ 2 + f (√(a ^ 2) / a) * dot x' v ^ 2 := hk
  rw [Real.sqrt_sq hc.le, Real.sqrt_sq hb.le, Real.sqrt_sq ha.le, div_self ha.ne'] at hk'
  linarith

/-- The next ellipsoid is determined by the forms of the last. -/
theorem forms_next {e₁ e₂ e₁' e₂' : Ellipsoid} (h : SameForms e₁ e₂) (h1 : PrincipalAxes cfg e₁ e₁') (h2 : PrincipalAxes cfg e₂ e₂') :
    SameForms e₁' e₂' := by
  obtain ⟨a, b, c, p1, q1, s1⟩ := h1.principal
  obtain ⟨a', b', c', p2, q2, s2⟩ := h2.principal
  rw [← h.tensor] at p2
  obtain ⟨rfl, rfl, rfl⟩ := p1.unique (tensorOf_symm e₁) p2
  refine ⟨by rw [q1, q2], by rw [s1, s2], fun f v => ?_⟩
  rw [q1, s1, q2, s2]
  exact p1.forms (tensorOf_symm e₁) p2 f v

theorem forms_reached : ∀ {n : Nat} {e₁ e₂ : Ellipsoid}, Reached cfg n e₁ → Reached cfg n e₂ → SameForms e₁ e₂ := by
  intro n
  induction n with
  | zero =>
    intro e₁ e₂ h1 h2
    cases h1
    cases h2
    exact ⟨rfl, rfl, fun _ _ => rfl⟩
  | succ n ih =>
    intro e₁ e₂ h1 h2
    cases h1 with
    | step r1 _ a1 _ =>
      cases h2 with
      | step r2 _ a2 _ => exact forms_next (ih r1 r2) a1 a2

theorem InnerAxes.same {e e' : Ellipsoid} (h : SameForms e e') (h' : InnerAxes cfg e') : InnerAxes cfg e := by
  intro δ hδ hd
  rw [h.q, h.s]
  exact h' δ hδ hd

/-- An iteration which settles has no other outcome. `hthin` is about the ellipsoids of the iteration. -/
theorem only_settled (cfg : Config) (hcen : cfg.reduced = true → ∀ p ∈ cfg.pts, rel cfg p ≠ 0) {n : Nat} {e e' : Ellipsoid}
    (hr : Reached cfg n e) (hn : (n : Int) < cfg.wall) (hmin : cfg.itMin ≤ ((members cfg e).length : Int)) (hax : PrincipalAxes cfg e e')
    (hset : Settled cfg e e') (hthin : ∀ n' e₁ e₂, n' ≤ n → Reached cfg n' e₁ → PrincipalAxes cfg e₁ e₂ → InnerAxes cfg e₂) :
    (∀ m, Classified cfg m → m.d = cfg.d ∧ m.q = e'.q ∧ m.s = e'.s ∧
      ∀ v, ellipsoidal2 m.major m.inter m.minor m.q m.s v = ellipsoidal2 e'.major e'.inter e'.minor e'.q e'.s v) ∧
    ¬ Unclassifiable cfg ∧ ¬ Degenerate cfg := by
  have later : ∀ n' e₁, Reached cfg n' e₁ → n' ≤ n := by
    intro n' e₁ hr'
    by_contra hlt
    obtain ⟨e₂, e₃, r1, p1, u1, -⟩ := reached_before hr' n (by omega)
    have hs := forms_reached r1 hr
    exact u1 ((settled_same hs.surfaces (forms_next hs p1 hax).surfaces).2 hset)
  have enough : ∀ n' e₁, Reached cfg n' e₁ → cfg.itMin ≤ ((members cfg e₁).length : Int) := by
    intro n' e₁ hr'
    rcases Nat.lt_or_ge n' n with hlt | hge
    · obtain ⟨e₂, e₃, r1, p1, u1, m1⟩ := reached_before hr n' hlt
      rw [(forms_reached hr' r1).members]
      exact m1
    · obtain rfl : n' = n := le_antisymm (later n' e₁ hr') hge
      rw [(forms_reached hr' hr).members]
      exact hmin
  have axes : ∀ n' e₁, Reached cfg n' e₁ → ∃ e₂, PrincipalAxes cfg e₁ e₂ := by
    intro n' e₁ hr'
    have tr : ∀ {e₂ e₃}, SameForms e₁ e₂ → PrincipalAxes cfg e₂ e₃ → PrincipalAxes cfg e₁ e₃ := by
      intro e₂ e₃ hs hp
      refine ⟨hp.axes, ?_⟩
      rw [hs.tensor]
      exact hp.lengths
    rcases Nat.lt_or_ge n' n with hlt | hge
    · obtain ⟨e₂, e₃, r1, p1, -, -⟩ := reached_before hr n' hlt
      exact ⟨e₃, tr (forms_reached hr' r1) p1⟩
    · obtain rfl : n' = n := le_antisymm (later n' e₁ hr') hge
      exact ⟨e', tr (forms_reached hr' hr) hax⟩
  refine ⟨?_, ?_, ?_⟩
  · intro m hc
    obtain ⟨n', e₁, e₂, r1, -, -, p1, st, rfl⟩ := hc
    have hn' := later n' e₁ r1
    rcases Nat.lt_or_ge n' n with hlt | hge
    · exfalso
      obtain ⟨e₃, e₄, r3, p3, u3, -⟩ := reached_before hr n' hlt
      have hs := forms_reached r1 r3
      exact u3 ((settled_same hs.surfaces (forms_next hs p1 p3).surfaces).1 st)
    · obtain rfl : n' = n := le_antisymm hn' hge
      have hs := forms_next (forms_reached r1 hr) p1 hax
      exact ⟨rfl, hs.q, hs.s, hs.surf⟩
  · intro hu
    obtain ⟨n', e₁, r1, hbad⟩ := hu
    have := later n' e₁ r1
    have := enough n' e₁ r1
    omega
  · intro hd
    obtain ⟨n', e₁, r1, -, -, hbad⟩ := hd
    rcases hbad with ⟨v, hv, hplane⟩ | ⟨hr', p, hp, h0⟩ | ⟨δ, e₂, hδ, hd, hp, hz⟩
    · obtain ⟨e₂, p⟩ := axes n' e₁ r1
      exact not_planar p v hv hplane
    · exact hcen hr' p (List.mem_of_mem_filter hp) h0
    · obtain ⟨g1, g2⟩ := hthin n' e₁ e₂ (later n' e₁ r1) r1 hp δ hδ hd
      exact hz.elim g1 g2

/-- The run reports the shape at which the iteration settles. `hthin` is about the ellipsoids of the iteration. -/
theorem reports_of_settled (cfg : Config) (hcen : cfg.reduced = true → ∀ p ∈ cfg.pts, rel cfg p ≠ 0) (morph : Morph)
    (sc : Scratch) (hf : Fits cfg sc) (hsol : GoodSolver cfg.solver) (hm : ∀ p ∈ cfg.pts, 0 < p.m) (htol : cfg.tol < 1) {n : Nat} {e e' : Ellipsoid}
    (hr : Reached cfg n e) (hn : (n : Int) < cfg.wall) (hmin : cfg.itMin ≤ ((members cfg e).length : Int)) (hax : PrincipalAxes cfg e e')
    (hset : Settled cfg e e') (hthin : ∀ n' e₁ e₂, n' ≤ n → Reached cfg n' e₁ → PrincipalAxes cfg e₁ e₂ → InnerAxes cfg e₂)
    (fuel : Nat) (hfuel : cfg.wall.toNat + 1 ≤ fuel) :
    ∃ m sc', runAlgo fuel cfg morph sc = some (some (m, sc')) ∧ m.d = cfg.d ∧ m.q = e'.q ∧ m.s = e'.s ∧
      ∀ v, ellipsoidal2 m.major m.inter m.minor m.q m.s v = ellipsoidal2 e'.major e'.inter e'.minor e'.q e'.s v := by
  obtain ⟨h1, h2, h3⟩ := only_settled cfg hcen hr hn hmin hax hset hthin
  rcases C105_outcome cfg morph sc hf hsol hm htol fuel hfuel with ⟨m, sc', hrun, hc⟩ | ⟨-, -, hu⟩ | ⟨-, hd⟩
  · exact ⟨m, sc', hrun, h1 m hc⟩
  · exact absurd hu h2
  · exact absurd hd h3

/-- An iteration which comes to too few particles or to the limit of iterations has no other outcome. -/
theorem only_gap (cfg : Config) (hcen : cfg.reduced = true → ∀ p ∈ cfg.pts, rel cfg p ≠ 0) {n : Nat} {e : Ellipsoid}
    (hr : Reached cfg n e) (hgap : cfg.wall ≤ (n : Int) ∨ ((members cfg e).length : Int) < cfg.itMin)
    (hthin : ∀ n' e₁ e₂, n' < n → Reached cfg n' e₁ → PrincipalAxes cfg e₁ e₂ → InnerAxes cfg e₂) :
    (∀ m, ¬ Classified cfg m) ∧ ¬ Degenerate cfg := by
  -- an iteration from which the run goes on comes before
  have before : ∀ n' e₁, Reached cfg n' e₁ → (n' : Int) < cfg.wall → cfg.itMin ≤ ((members cfg e₁).length : Int) → n' < n := by
    intro n' e₁ hr' hn' hmin'
    by_contra hge
    push Not at hge
    rcases hgap with hw | hfew
    · omega
    · rcases hge.eq_or_lt with rfl | hlt
      · rw [(forms_reached hr' hr).members] at hmin'
        omega
      · obtain ⟨e₂, e₃, r2, -, -, m2⟩ := reached_before hr' n hlt
        rw [(forms_reached r2 hr).members] at m2
        omega
  refine ⟨?_, ?_⟩
  · intro m hc
    obtain ⟨n', e₁, e₂, r1, hn', hmin', p1, st, rfl⟩ := hc
    obtain ⟨e₃, e₄, r3, p3, u3, -⟩ := reached_before hr n' (before n' e₁ r1 hn' hmin')
    have hs := forms_reached r1 r3
    exact u3 ((settled_same hs.surfaces (forms_next hs p1 p3).surfaces).1 st)
  · intro hd
    obtain ⟨n', e₁, r1, hn', hmin', hbad⟩ := hd
    have hb := before n' e₁ r1 hn' hmin'
    obtain ⟨e₃, e₄, r3, p3, u3, -⟩ := reached_before hr n' hb
    rcases hbad with ⟨v, hv, hplane⟩ | ⟨hr', p, hp, h0⟩ | ⟨δ, e₂, hδ, hd, hp, hz⟩
    · rw [(forms_reached r1 r3).members] at hplane
      exact not_planar p3 v hv hplane
    · exact hcen hr' p (List.mem_of_mem_filter hp) h0
    · obtain ⟨g1, g2⟩ := hthin n' e₁ e₂ hb r1 hp δ hδ hd
      exact hz.elim g1 g2

/-- The run reports a gap if the iteration comes to too few particles or to the limit of iterations. -/
theorem gap_of_few (cfg : Config) (hcen : cfg.reduced = true → ∀ p ∈ cfg.pts, rel cfg p ≠ 0) (morph : Morph) (sc : Scratch) (hf : Fits cfg sc)
    (hsol : GoodSolver cfg.solver) (hm : ∀ p ∈ cfg.pts, 0 < p.m) (htol : cfg.tol < 1) {n : Nat} {e : Ellipsoid}
    (hr : Reached cfg n e) (hgap : cfg.wall ≤ (n : Int) ∨ ((members cfg e).length : Int) < cfg.itMin)
    (hthin : ∀ n' e₁ e₂, n' < n → Reached cfg n' e₁ → PrincipalAxes cfg e₁ e₂ → InnerAxes cfg e₂)
    (fuel : Nat) (hfuel : cfg.wall.toNat + 1 ≤ fuel) : ∃ sc', runAlgo fuel cfg morph sc = some (some (.zero, sc')) := by
  obtain ⟨h1, h2⟩ := only_gap cfg hcen hr hgap hthin
  rcases C105_outcome cfg morph sc hf hsol hm htol fuel hfuel with ⟨m, sc', hrun, hc⟩ | ⟨sc', hrun, -⟩ | ⟨-, hd⟩
  · exact absurd hc (h1 m)
  · exact ⟨sc', hrun⟩
  · exact absurd hd h2

end Verif.Shapes
