import Verif.Shapes.Outcome

/-!
# Change of units in the specification of shapes

Lengths multiplied by `f`, masses by `g`: the iterates, and hence the reasons of the outcome, stay the
same.
-/

namespace Verif.Shapes

/-- The same particles in other units. -/
def scalePt (f g : ℝ) (p : Pt) : Pt := ⟨fun i => p.x i * f, fun i => p.src i * f, p.m * g⟩

/-- The same configuration in other units. -/
def scaleCfg (f g : ℝ) (cfg : Config) : Config :=
  { cfg with
    pts := cfg.pts.map (scalePt f g)
    center := fun i => cfg.center i * f
    srcCenter := fun i => cfg.srcCenter i * f
    d := cfg.d * f
    deltaD := cfg.deltaD.map (· * f) }

theorem rel_scale (f g : ℝ) (cfg : Config) (p : Pt) :
    rel (scaleCfg f g cfg) (scalePt f g p) = fun i => rel cfg p i * f := by
  funext i
  simp only [rel, scaleCfg, scalePt]
  ring

theorem dot_scale (f : ℝ) (u v : Vec ℝ) : dot u (fun i => v i * f) = dot u v * f := by
  unfold dot; ring

theorem ellipsoidal2_scale (f : ℝ) (major inter minor : Vec ℝ) (q s : ℝ) (y : Vec ℝ) :
    ellipsoidal2 major inter minor q s (fun i => y i * f) =
      ellipsoidal2 major inter minor q s y * f ^ 2 := by
  unfold ellipsoidal2
  simp only [dot_scale]
  ring

theorem inside_scale (f g : ℝ) (hf : 0 < f) (cfg : Config) (major inter minor : Vec ℝ) (q s : ℝ) (p : Pt) :
    Inside (scaleCfg f g cfg) major inter minor q s (scalePt f g p) ↔
      Inside cfg major inter minor q s p := by
  have hf2 : 0 < f ^ 2 := by positivity
  unfold Inside
  rw [rel_scale, ellipsoidal2_scale]
  simp only [dot_scale]
  refine and_congr ?_ ?_
  · show _ < (cfg.d * f) ^ 2 ↔ _
    rw [mul_pow]
    exact ⟨fun h => lt_of_mul_lt_mul_right h hf2.le, fun h => mul_lt_mul_of_pos_right h hf2⟩
  · have ratio : ∀ x y : ℝ, (x * f) ^ 2 / (y * f) ^ 2 = x ^ 2 / y ^ 2 := by
      intro x y
      rw [mul_pow, mul_pow, mul_div_mul_right _ _ hf2.ne']
    constructor
    · intro h δ hδ hne
      have := h (δ * f) (by simp [scaleCfg, hδ])
        (fun e => hne (mul_right_cancel₀ hf.ne' (show cfg.d * f = δ * f from e)))
      simp only [scaleCfg] at this
      rw [← sub_mul, ← mul_assoc, ← sub_mul, ← mul_assoc, ← sub_mul, ratio, ratio, ratio] at this
      exact this
    · intro h δ' hδ' hne
      simp only [scaleCfg, Option.map_eq_some_iff] at hδ'
      obtain ⟨δ, hδ, rfl⟩ := hδ'
      have := h δ hδ (fun e => hne (by simp [scaleCfg, e]))
      simp only [scaleCfg]
      rw [← sub_mul, ← mul_assoc, ← sub_mul, ← mul_assoc, ← sub_mul, ratio, ratio, ratio]
      exact this

theorem members_scale (f g : ℝ) (hf : 0 < f) (cfg : Config) (e : Ellipsoid) :
    members (scaleCfg f g cfg) e = (members cfg e).map (scalePt f g) := by
  unfold members
  show List.filter _ (cfg.pts.map (scalePt f g)) = _
  rw [List.filter_map]
  congr 1
  apply List.filter_congr
  intro p _
  simp only [Function.comp, decide_eq_decide]
  exact inside_scale f g hf cfg _ _ _ _ _ p

theorem tensorOf_scale (f g : ℝ) (hf : 0 < f) (hg : 0 < g) (cfg : Config) (e : Ellipsoid) (i j : Fin 3) :
    tensorOf (scaleCfg f g cfg) e i j =
      tensorOf cfg e i j * (if cfg.reduced then 1 else f) ^ 2 := by
  unfold tensorOf massTensor
  rw [members_scale f g hf]
  simp only [List.map_map]
  have h1 : ((members cfg e).map ((fun p : Pt => p.m) ∘ scalePt f g)).sum =
      ((members cfg e).map fun p => p.m).sum * g := by
    induction members cfg e with
    | nil => simp
    | cons p l ih => simp only [List.map_cons, List.sum_cons, ih, Function.comp, scalePt]; ring
  rw [h1]
  set k : ℝ := if cfg.reduced then 1 else f with hk
  have h2 : ∀ l : List Pt, (l.map ((fun p : Pt => p.m * (p.src i - (scaleCfg f g cfg).srcCenter i) *
      (p.src j - (scaleCfg f g cfg).srcCenter j) / (if (scaleCfg f g cfg).reduced then
        ellipsoidal2 e.major e.inter e.minor e.q e.s (rel (scaleCfg f g cfg) p) else 1)) ∘
        scalePt f g)).sum =
      (l.map fun p => p.m * (p.src i - cfg.srcCenter i) * (p.src j - cfg.srcCenter j) /
        (if cfg.reduced then ellipsoidal2 e.major e.inter e.minor e.q e.s (rel cfg p) else 1)).sum *
        (k ^ 2 * g) := by
    intro l
    induction l with
    | nil => simp
    | cons p l ih =>
      simp only [List.map_cons, List.sum_cons, ih, Function.comp]
      rw [add_mul]
      congr 1
      rw [rel_scale, ellipsoidal2_scale]
      show p.m * g * (p.src i * f - cfg.srcCenter i * f) * (p.src j * f - cfg.srcCenter j * f) /
        (if cfg.reduced then _ else 1) = _
      cases hred : cfg.reduced with
      | true =>
        rw [hred] at hk
        simp only [if_true] at hk ⊢
        rw [hk]
        have hf2 : f ^ 2 ≠ 0 := by positivity
        have : p.m * g * (p.src i * f - cfg.srcCenter i * f) * (p.src j * f - cfg.srcCenter j * f) =
            (p.m * (p.src i - cfg.srcCenter i) * (p.src j - cfg.srcCenter j) * g) * f ^ 2 := by ring
        rw [this, mul_div_mul_right _ _ hf2]
        ring
      | false =>
        rw [hred] at hk
        simp only [Bool.false_eq_true, if_false] at hk ⊢
        rw [hk]
        ring
  rw [h2]
  by_cases h0 : ((members cfg e).map fun p => p.m).sum = 0
  · rw [h0]; simp
  · have := hg.ne'
    field_simp

theorem principal_scale (f g : ℝ) (hf : 0 < f) (hg : 0 < g) (cfg : Config) (e e' : Ellipsoid)
    (h : PrincipalAxes (scaleCfg f g cfg) e e') : PrincipalAxes cfg e e' := by
  obtain ⟨ho, a, b, c, hc, hcb, hba, eq, es, e1, e2, e3⟩ := h
  have hk : 0 < (if cfg.reduced then (1 : ℝ) else f) := by split <;> [exact one_pos; exact hf]
  have ht := tensorOf_scale f g hf hg cfg e
  set k : ℝ := if cfg.reduced then (1 : ℝ) else f
  have hev : ∀ (l : ℝ) (v : Vec ℝ), IsEigenvector (tensorOf (scaleCfg f g cfg) e) (l ^ 2) v →
      IsEigenvector (tensorOf cfg e) ((l / k) ^ 2) v := by
    intro l v h i
    have := h i
    rw [ht, ht, ht] at this
    have hk2 : k ^ 2 ≠ 0 := by positivity
    rw [div_pow]
    field_simp
    linarith
  have ha : 0 < a := by linarith
  refine ⟨ho, a / k, b / k, c / k, div_pos hc hk, (div_le_div_iff_of_pos_right hk).2 hcb,
    (div_le_div_iff_of_pos_right hk).2 hba, ?_, ?_, hev a _ e1, hev b _ e2, hev c _ e3⟩
  · rw [eq, div_div_div_cancel_right₀ hk.ne']
  · rw [es, div_div_div_cancel_right₀ hk.ne']

theorem reached_scale (f g : ℝ) (hf : 0 < f) (hg : 0 < g) (cfg : Config) (n : Nat) (e : Ellipsoid)
    (h : Reached (scaleCfg f g cfg) n e) : Reached cfg n e := by
  induction h with
  | sphere => exact .sphere
  | step _ enough axes unsettled ih =>
    refine .step ih ?_ (principal_scale f g hf hg cfg _ _ axes) unsettled
    rw [members_scale f g hf, List.length_map] at enough
    exact enough

theorem classified_scale (f g : ℝ) (hf : 0 < f) (hg : 0 < g) (cfg : Config) (m : Morph)
    (h : Classified (scaleCfg f g cfg) m) :
    m.d = cfg.d * f ∧ Classified cfg { m with d := cfg.d } := by
  obtain ⟨n, e, e', hr, hw, hmin, hp, hs, rfl⟩ := h
  rw [members_scale f g hf, List.length_map] at hmin
  exact ⟨rfl, n, e, e', reached_scale f g hf hg cfg n e hr, hw, hmin,
    principal_scale f g hf hg cfg _ _ hp, hs, rfl⟩

theorem unclassifiable_scale (f g : ℝ) (hf : 0 < f) (hg : 0 < g) (cfg : Config)
    (h : Unclassifiable (scaleCfg f g cfg)) : Unclassifiable cfg := by
  obtain ⟨n, e, hr, hw⟩ := h
  rw [members_scale f g hf, List.length_map] at hw
  exact ⟨n, e, reached_scale f g hf hg cfg n e hr, hw⟩

theorem degenerate_scale (f g : ℝ) (hf : 0 < f) (hg : 0 < g) (cfg : Config)
    (h : Degenerate (scaleCfg f g cfg)) : Degenerate cfg := by
  obtain ⟨n, e, hr, hw, hmin, hwhy⟩ := h
  rw [members_scale f g hf] at hmin hwhy
  rw [List.length_map] at hmin
  refine ⟨n, e, reached_scale f g hf hg cfg n e hr, hw, hmin, ?_⟩
  rcases hwhy with ⟨v, hv, hall⟩ | ⟨hred, p, hp, h0⟩ | ⟨δ', e', hδ', hne, hp, hwhich⟩
  · refine .inl ⟨v, hv, fun p hp => ?_⟩
    have := hall _ (List.mem_map_of_mem hp)
    have e1 : (fun i => (scalePt f g p).src i - (scaleCfg f g cfg).srcCenter i) =
        fun i => (p.src i - cfg.srcCenter i) * f := by
      funext i; simp only [scalePt, scaleCfg]; ring
    rw [e1, dot_scale f v fun i => p.src i - cfg.srcCenter i] at this
    exact (mul_eq_zero.1 this).resolve_right hf.ne'
  · obtain ⟨p', hp', rfl⟩ := List.mem_map.1 hp
    refine .inr (.inl ⟨hred, p', hp', ?_⟩)
    rw [rel_scale] at h0
    funext i
    exact (mul_eq_zero.1 (congrFun h0 i)).resolve_right hf.ne'
  · simp only [scaleCfg, Option.map_eq_some_iff] at hδ'
    obtain ⟨δ, hδ, rfl⟩ := hδ'
    refine .inr (.inr ⟨δ, e', hδ, fun e => hne (by simp [scaleCfg, e]),
      principal_scale f g hf hg cfg _ _ hp, ?_⟩)
    have key : ∀ r : ℝ, r * (scaleCfg f g cfg).d = δ * f → r * cfg.d = δ := by
      intro r h
      apply mul_right_cancel₀ hf.ne'
      simp only [scaleCfg] at h
      rw [← h]; ring
    exact hwhich.imp (key _) (key _)

end Verif.Shapes
