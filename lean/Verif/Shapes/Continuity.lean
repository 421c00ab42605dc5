import Verif.Round.AtEdge
import Verif.Shapes.Determined
import Mathlib.Topology.MetricSpace.ProperSpace.Real
import Mathlib.Topology.Algebra.Order.Field

/-!
# Small changes of the data (C180)

Local shapes (`runEllAlgo`, `runShellAlgo` and the variants for velocities, shape_profs_algos.pyx, see Shapes/Model.lean) of data which differ a little.
-/

namespace Verif.Shapes

open Filter Topology
open Verif (Vec Particle)
open Verif.Round (form inverseForm)

/-! ## Specification -/

/-- The particle with number `k`. -/
def particle (cfg : Config) (k : Nat) : Pt := cfg.pts.getD k ⟨0, 0, 0⟩

/-- The arguments `cfgs i` approach `cfg`: the coordinates (and velocities) and masses of all particles, the centre, the radius, and for shells the
thickness. A shell without inner boundary (thickness equal to the radius, the innermost one) stays one. The settings are the same, every
eigen-solver is right. -/
structure Approach {ι : Type} (F : Filter ι) (cfgs : ι → Config) (cfg : Config) : Prop where
  settings : ∀ i, (cfgs i).tol = cfg.tol ∧ (cfgs i).wall = cfg.wall ∧ (cfgs i).itMin = cfg.itMin ∧
    (cfgs i).reduced = cfg.reduced
  shell : ∀ i, ((cfgs i).deltaD = none ↔ cfg.deltaD = none)
  thickness : ∀ δ, cfg.deltaD = some δ → Tendsto (fun i => (cfgs i).deltaD.getD 0) F (𝓝 δ)
  innermost : cfg.deltaD = some cfg.d → ∀ i, (cfgs i).deltaD = some (cfgs i).d
  solver : ∀ i, GoodSolver (cfgs i).solver
  number : ∀ i, (cfgs i).pts.length = cfg.pts.length
  d : Tendsto (fun i => (cfgs i).d) F (𝓝 cfg.d)
  center : ∀ j, Tendsto (fun i => (cfgs i).center j) F (𝓝 (cfg.center j))
  srcCenter : ∀ j, Tendsto (fun i => (cfgs i).srcCenter j) F (𝓝 (cfg.srcCenter j))
  x : ∀ k, k < cfg.pts.length → ∀ j, Tendsto (fun i => (particle (cfgs i) k).x j) F (𝓝 ((particle cfg k).x j))
  src : ∀ k, k < cfg.pts.length → ∀ j, Tendsto (fun i => (particle (cfgs i) k).src j) F (𝓝 ((particle cfg k).src j))
  m : ∀ k, k < cfg.pts.length → Tendsto (fun i => (particle (cfgs i) k).m) F (𝓝 (particle cfg k).m)

/-- Nothing is decided by a hair's breadth: no particle is exactly on the surface of an ellipsoid of the iteration or on the inner boundary of a
shell, no such boundary has a vanishing semi-axis, and no axis ratio changes exactly by the tolerance. -/
structure Generic (cfg : Config) : Prop where
  surface : ∀ n e, Reached cfg n e → (n : Int) < cfg.wall → ∀ p ∈ cfg.pts, ellipsoidal2 e.major e.inter e.minor e.q e.s (rel cfg p) ≠ cfg.d ^ 2
  inner : ∀ n e, Reached cfg n e → (n : Int) < cfg.wall → ∀ δ, cfg.deltaD = some δ → cfg.d ≠ δ → ∀ p ∈ cfg.pts, inner2 cfg.d δ e (rel cfg p) ≠ 1
  axes : ∀ n e e', Reached cfg n e → (n : Int) < cfg.wall → PrincipalAxes cfg e e' → InnerAxes cfg e'
  change : ∀ n e e', Reached cfg n e → (n : Int) < cfg.wall → PrincipalAxes cfg e e' → |e'.q - e.q| ≠ cfg.tol * e.q ∧ |e'.s - e.s| ≠ cfg.tol * e.s

/-- Two reports are equal up to `ε`: both or none is a gap; radii, ratios and ellipsoidal distances are close. -/
structure CloseReports (ε : ℝ) (m m' : Morph) : Prop where
  gap : m' = .zero ↔ m = .zero
  d : |m'.d - m.d| ≤ ε
  q : |m'.q - m.q| ≤ ε
  s : |m'.s - m.s| ≤ ε
  ellipsoid : m ≠ .zero → ∀ w, |ellipsoidal2 m'.major m'.inter m'.minor m'.q m'.s w - ellipsoidal2 m.major m.inter m.minor m.q m.s w| ≤
    ε * ellipsoidal2 m.major m.inter m.minor m.q m.s w

/-! ## Proof -/

section

variable {ι : Type} {F : Filter ι}

theorem form_diff (t t' : Tensor) (v : Vec ℝ) :
    |form t' v - form t v| ≤ (∑ i, ∑ j, |t' i j - t i j|) * dot v v := by
  have hv : ∀ i j, |v i * v j| ≤ dot v v := by
    intro i j
    have h : ∀ k, v k * v k ≤ dot v v := by
      intro k
      unfold dot
      have h0 := mul_self_nonneg (v 0)
      have h1 := mul_self_nonneg (v 1)
      have h2 := mul_self_nonneg (v 2)
      fin_cases k <;> simp <;> linarith
    rw [abs_le]
    have hi := h i
    have hj := h j
    constructor <;> nlinarith [sq_nonneg (v i - v j), sq_nonneg (v i + v j)]
  have e : form t' v - form t v = ∑ i, ∑ j, (t' i j - t i j) * (v i * v j) := by
    simp only [Fin.sum_univ_three]
    unfold form dot
    ring
  rw [e, Finset.sum_mul]
  refine (Finset.abs_sum_le_sum_abs _ _).trans (Finset.sum_le_sum fun i _ => ?_)
  rw [Finset.sum_mul]
  refine (Finset.abs_sum_le_sum_abs _ _).trans (Finset.sum_le_sum fun j _ => ?_)
  rw [abs_mul]
  exact mul_le_mul_of_nonneg_left (hv i j) (abs_nonneg _)

theorem distance_tendsto {T : Tensor} {Ts : ι → Tensor} (h : ∀ i j, Tendsto (fun l => Ts l i j) F (𝓝 (T i j))) :
    Tendsto (fun l => ∑ i, ∑ j, |Ts l i j - T i j|) F (𝓝 0) := by
  have h0 : (0 : ℝ) = ∑ i : Fin 3, ∑ j : Fin 3, |T i j - T i j| := by simp
  rw [h0]
  exact tendsto_finsetSum _ fun i _ => tendsto_finsetSum _ fun j _ => ((h i j).sub_const _).abs

theorem ellipsoidal2_eq {a b c : ℝ} {x y z : Vec ℝ} (ha : 0 < a) (hb : 0 < b) (hc : 0 < c) (ho : Orthonormal x y z) (w : Vec ℝ) :
    a ^ 2 * inverseForm ⟨![c ^ 2, b ^ 2, a ^ 2], ![z, y, x]⟩ w = ellipsoidal2 x y z (b / a) (c / a) w := by
  have := Round.ellipsoidal2_inverse ha hb hc ho one_pos w
  simpa only [div_one] using this

theorem sqrt_ratio {a b : ℝ} (ha : 0 < a) (hb : 0 ≤ b) : √(b ^ 2 / a ^ 2) = b / a := by
  rw [← div_pow, Real.sqrt_sq (div_nonneg hb ha.le)]

theorem squares_near {T : Tensor} {Ts : ι → Tensor} (h : ∀ i j, Tendsto (fun l => Ts l i j) F (𝓝 (T i j)))
    {a b c : ℝ} {x y z : Vec ℝ} (hp : Principal T a b c x y z)
    {a' b' c' : ι → ℝ} {x' y' z' : ι → Vec ℝ} (hp' : ∀ᶠ l in F, Principal (Ts l) (a' l) (b' l) (c' l) (x' l) (y' l) (z' l)) :
    Tendsto (fun l => a' l ^ 2) F (𝓝 (a ^ 2)) ∧ Tendsto (fun l => b' l ^ 2) F (𝓝 (b ^ 2)) ∧ Tendsto (fun l => c' l ^ 2) F (𝓝 (c ^ 2)) := by
  have hdist := distance_tendsto h
  set E : ι → ℝ := fun l => ∑ i, ∑ j, |Ts l i j - T i j| with hE
  have hform : ∀ l v, |form (Ts l) v - form T v| ≤ E l * dot v v := fun l v => form_diff T (Ts l) v
  have hval : ∀ᶠ l in F, |c' l ^ 2 - c ^ 2| ≤ E l ∧ |b' l ^ 2 - b ^ 2| ≤ 5 * E l ∧ |a' l ^ 2 - a ^ 2| ≤ E l := by
    filter_upwards [hp'] with l hl
    exact Round.eigenvalues_near (Round.principal_eigen hp) (Round.principal_eigen hl) (hform l)
  have lim : ∀ (u : ι → ℝ) (v K : ℝ), (∀ᶠ l in F, |u l ^ 2 - v ^ 2| ≤ K * E l) → Tendsto (fun l => u l ^ 2) F (𝓝 (v ^ 2)) := by
    intro u v K hu
    have h0 : Tendsto (fun l => K * E l) F (𝓝 0) := by simpa using hdist.const_mul K
    have h1 : Tendsto (fun l => u l ^ 2 - v ^ 2) F (𝓝 0) := squeeze_zero_norm' (by simpa only [Real.norm_eq_abs] using hu) h0
    have h2 := h1.add_const (v ^ 2)
    rw [zero_add] at h2
    exact h2.congr fun l => sub_add_cancel _ _
  exact ⟨lim a' a 1 (hval.mono fun l hl => by linarith [hl.2.2]), lim b' b 5 (hval.mono fun l hl => hl.2.1),
    lim c' c 1 (hval.mono fun l hl => by linarith [hl.1])⟩

/-- Principal axes of tensors which approach a positive definite one. -/
theorem axes_near {T : Tensor} {Ts : ι → Tensor} (h : ∀ i j, Tendsto (fun l => Ts l i j) F (𝓝 (T i j))) (hsym : ∀ l i j, Ts l i j = Ts l j i)
    {a b c : ℝ} {x y z : Vec ℝ} (hp : Principal T a b c x y z) :
    (∀ᶠ l in F, ∃ a' b' c' x' y' z', Principal (Ts l) a' b' c' x' y' z') ∧
    ∀ (a' b' c' : ι → ℝ) (x' y' z' : ι → Vec ℝ), (∀ᶠ l in F, Principal (Ts l) (a' l) (b' l) (c' l) (x' l) (y' l) (z' l)) →
      Tendsto (fun l => b' l / a' l) F (𝓝 (b / a)) ∧ Tendsto (fun l => c' l / a' l) F (𝓝 (c / a)) ∧
      ∃ θ : ι → ℝ, Tendsto θ F (𝓝 0) ∧ ∀ᶠ l in F, ∀ w,
        |ellipsoidal2 (x' l) (y' l) (z' l) (b' l / a' l) (c' l / a' l) w - ellipsoidal2 x y z (b / a) (c / a) w| ≤
          θ l * ellipsoidal2 x y z (b / a) (c / a) w := by
  have hc := hp.pos
  have hb : 0 < b := hc.trans_le hp.cb
  have ha : 0 < a := hb.trans_le hp.ba
  have hdist := distance_tendsto h
  set E : ι → ℝ := fun l => ∑ i, ∑ j, |Ts l i j - T i j| with hE
  have hE0 : ∀ l, 0 ≤ E l := fun l => Finset.sum_nonneg fun i _ => Finset.sum_nonneg fun j _ => abs_nonneg _
  have hform : ∀ l v, |form (Ts l) v - form T v| ≤ E l * dot v v := fun l v => form_diff T (Ts l) v
  have heig := Round.principal_eigen hp
  constructor
  · filter_upwards [hdist.eventually_lt_const (show (0 : ℝ) < c ^ 2 / 2 by positivity)] with l hl
    refine Round.principal_exists (hsym l) (show (0 : ℝ) < c ^ 2 / 2 by positivity) fun v => ?_
    have h1 := (Round.form_le heig v).1
    have h2 := (abs_le.1 (hform l v)).1
    have h3 : 0 ≤ dot v v := by unfold dot; nlinarith [sq_nonneg (v 0), sq_nonneg (v 1), sq_nonneg (v 2)]
    change c ^ 2 * dot v v ≤ _ at h1
    nlinarith [mul_le_mul_of_nonneg_right hl.le h3]
  · intro a' b' c' x' y' z' hp'
    obtain ⟨la, lb, lc⟩ := squares_near h hp hp'
    have ha2 : a ^ 2 ≠ 0 := by positivity
    refine ⟨?_, ?_, fun l => 3 * (E l / c ^ 2), ?_, ?_⟩
    · have := (Real.continuous_sqrt.tendsto _).comp (lb.div la ha2)
      rw [sqrt_ratio ha hb.le] at this
      refine this.congr' ?_
      filter_upwards [hp'] with l hl
      exact sqrt_ratio ((hl.pos.trans_le hl.cb).trans_le hl.ba) (hl.pos.trans_le hl.cb).le
    · have := (Real.continuous_sqrt.tendsto _).comp (lc.div la ha2)
      rw [sqrt_ratio ha hc.le] at this
      refine this.congr' ?_
      filter_upwards [hp'] with l hl
      exact sqrt_ratio ((hl.pos.trans_le hl.cb).trans_le hl.ba) hl.pos.le
    · have := (hdist.div_const (c ^ 2)).const_mul 3
      simpa using this
    · have hsmall : Tendsto (fun l => E l / c ^ 2) F (𝓝 0) := by simpa using hdist.div_const (c ^ 2)
      filter_upwards [hp', hsmall.eventually_lt_const (show (0 : ℝ) < 1 / 12 by norm_num)] with l hl hlt
      intro w
      have hc' := hl.pos
      have hb' : 0 < b' l := hc'.trans_le hl.cb
      have ha' : 0 < a' l := hb'.trans_le hl.ba
      obtain ⟨-, -, hr⟩ := Round.radii_near heig (Round.principal_eigen hl) (show (0 : ℝ) < c ^ 2 by positivity)
        (δ := E l / a ^ 2) (θ := E l / c ^ 2) (div_nonneg (hE0 l) (by positivity))
        (by show E l / a ^ 2 * a ^ 2 ≤ E l / c ^ 2 * c ^ 2
            rw [div_mul_cancel₀ _ ha2, div_mul_cancel₀ _ (by positivity)])
        hlt.le (fun v => by
          show _ ≤ E l / a ^ 2 * a ^ 2 * dot v v
          rw [div_mul_cancel₀ _ ha2]
          exact hform l v)
      obtain ⟨r1, r2⟩ := hr w
      change (1 - 2 * (E l / c ^ 2)) * (a ^ 2 * _) ≤ a' l ^ 2 * _ at r1
      change a' l ^ 2 * _ ≤ (1 + 3 * (E l / c ^ 2)) * (a ^ 2 * _) at r2
      rw [ellipsoidal2_eq ha hb hc hp.axes, ellipsoidal2_eq ha' hb' hc' hl.axes] at r1 r2
      have hpos : 0 ≤ ellipsoidal2 x y z (b / a) (c / a) w := by unfold ellipsoidal2; positivity
      have hθ : 0 ≤ E l / c ^ 2 := div_nonneg (hE0 l) (by positivity)
      have := mul_nonneg hθ hpos
      rw [abs_le]
      constructor <;> linarith

theorem unit_bound {x : Vec ℝ} (h : dot x x = 1) : x ∈ Metric.closedBall (0 : Vec ℝ) 1 := by
  rw [mem_closedBall_zero_iff, pi_norm_le_iff_of_nonneg zero_le_one]
  intro i
  rw [Real.norm_eq_abs, ← sq_le_one_iff_abs_le_one]
  unfold dot at h
  have h0 := mul_self_nonneg (x 0)
  have h1 := mul_self_nonneg (x 1)
  have h2 := mul_self_nonneg (x 2)
  fin_cases i <;> simp only [Fin.zero_eta, Fin.mk_one, Fin.reduceFinMk, sq] <;> linarith

/-- Quadratic forms made of the axis ratios converge, although axes of equal length need not. -/
theorem forms_near {T : Tensor} {Ts : ι → Tensor} (h : ∀ i j, Tendsto (fun l => Ts l i j) F (𝓝 (T i j))) (hsymT : ∀ i j, T i j = T j i)
    (hsym : ∀ l i j, Ts l i j = Ts l j i)
    {a b c : ℝ} {x y z : Vec ℝ} (hp : Principal T a b c x y z)
    {a' b' c' : ι → ℝ} {x' y' z' : ι → Vec ℝ} (hp' : ∀ᶠ l in F, Principal (Ts l) (a' l) (b' l) (c' l) (x' l) (y' l) (z' l))
    (f : ι → ℝ → ℝ) (f₀ : ℝ → ℝ) (h1 : Tendsto (fun l => f l 1) F (𝓝 (f₀ 1))) (hb : Tendsto (fun l => f l (b' l / a' l)) F (𝓝 (f₀ (b / a))))
    (hc : Tendsto (fun l => f l (c' l / a' l)) F (𝓝 (f₀ (c / a)))) {ws : ι → Vec ℝ} {w : Vec ℝ} (hw : ∀ j, Tendsto (fun l => ws l j) F (𝓝 (w j))) :
    Tendsto (fun l => f l 1 * dot (x' l) (ws l) ^ 2 + f l (b' l / a' l) * dot (y' l) (ws l) ^ 2 + f l (c' l / a' l) * dot (z' l) (ws l) ^ 2) F
      (𝓝 (f₀ 1 * dot x w ^ 2 + f₀ (b / a) * dot y w ^ 2 + f₀ (c / a) * dot z w ^ 2)) := by
  have hlims := squares_near h hp hp'
  rw [tendsto_iff_ultrafilter]
  intro g hg
  have hmem : ∀ᶠ l in (g : Filter ι), ((x' l, y' l, z' l) : Vec ℝ × Vec ℝ × Vec ℝ) ∈
      Metric.closedBall (0 : Vec ℝ) 1 ×ˢ (Metric.closedBall (0 : Vec ℝ) 1 ×ˢ Metric.closedBall (0 : Vec ℝ) 1) := by
    filter_upwards [hg hp'] with l hl
    exact ⟨unit_bound hl.axes.1, unit_bound hl.axes.2.1, unit_bound hl.axes.2.2.1⟩
  have hcomp : IsCompact (Metric.closedBall (0 : Vec ℝ) 1 ×ˢ (Metric.closedBall (0 : Vec ℝ) 1 ×ˢ Metric.closedBall (0 : Vec ℝ) 1)) :=
    (isCompact_closedBall _ _).prod ((isCompact_closedBall _ _).prod (isCompact_closedBall _ _))
  obtain ⟨⟨X, Y, Z⟩, -, hlim⟩ := hcomp.ultrafilter_le_nhds' (g.map fun l => (x' l, y' l, z' l)) hmem
  have hlim' : Tendsto (fun l => (x' l, y' l, z' l)) g (𝓝 (X, Y, Z)) := hlim
  have cx : ∀ j, Tendsto (fun l => x' l j) g (𝓝 (X j)) := fun j => (((continuous_apply j).comp continuous_fst).tendsto _).comp hlim'
  have cy : ∀ j, Tendsto (fun l => y' l j) g (𝓝 (Y j)) :=
    fun j => (((continuous_apply j).comp (continuous_fst.comp continuous_snd)).tendsto _).comp hlim'
  have cz : ∀ j, Tendsto (fun l => z' l j) g (𝓝 (Z j)) :=
    fun j => (((continuous_apply j).comp (continuous_snd.comp continuous_snd)).tendsto _).comp hlim'
  have hdot : ∀ {u v : ι → Vec ℝ} {U V : Vec ℝ}, (∀ j, Tendsto (fun l => u l j) g (𝓝 (U j))) → (∀ j, Tendsto (fun l => v l j) g (𝓝 (V j))) →
      Tendsto (fun l => dot (u l) (v l)) g (𝓝 (dot U V)) := by
    intro u v U V hu hv
    unfold dot
    exact (((hu 0).mul (hv 0)).add ((hu 1).mul (hv 1))).add ((hu 2).mul (hv 2))
  have ort : ∀ {u v : ι → Vec ℝ} {U V : Vec ℝ} {k : ℝ}, (∀ j, Tendsto (fun l => u l j) g (𝓝 (U j))) →
      (∀ j, Tendsto (fun l => v l j) g (𝓝 (V j))) → (∀ᶠ l in (g : Filter ι), dot (u l) (v l) = k) → dot U V = k := by
    intro u v U V k hu hv he
    exact tendsto_nhds_unique (hdot hu hv) (tendsto_const_nhds.congr' (he.mono fun l hl => hl.symm))
  have hpg : ∀ᶠ l in (g : Filter ι), Principal (Ts l) (a' l) (b' l) (c' l) (x' l) (y' l) (z' l) := hg hp'
  have eig : ∀ {u : ι → Vec ℝ} {U : Vec ℝ} {v : ι → ℝ} {V : ℝ}, (∀ j, Tendsto (fun l => u l j) g (𝓝 (U j))) → Tendsto v g (𝓝 V) →
      (∀ᶠ l in (g : Filter ι), IsEigenvector (Ts l) (v l) (u l)) → IsEigenvector T V U := by
    intro u U v V hu hv he i
    have hT : ∀ i j, Tendsto (fun l => Ts l i j) g (𝓝 (T i j)) := fun i j => (h i j).mono_left hg
    refine tendsto_nhds_unique ((((hT i 0).mul (hu 0)).add ((hT i 1).mul (hu 1))).add ((hT i 2).mul (hu 2))) ?_
    exact (hv.mul (hu i)).congr' (he.mono fun l hl => (hl i).symm)
  have hP : Principal T a b c X Y Z := by
    refine ⟨hp.pos, hp.cb, hp.ba, ⟨?_, ?_, ?_, ?_, ?_, ?_⟩, ?_, ?_, ?_⟩
    · exact ort cx cx (hpg.mono fun l hl => hl.axes.1)
    · exact ort cy cy (hpg.mono fun l hl => hl.axes.2.1)
    · exact ort cz cz (hpg.mono fun l hl => hl.axes.2.2.1)
    · exact ort cx cy (hpg.mono fun l hl => hl.axes.2.2.2.1)
    · exact ort cx cz (hpg.mono fun l hl => hl.axes.2.2.2.2.1)
    · exact ort cy cz (hpg.mono fun l hl => hl.axes.2.2.2.2.2)
    · exact eig cx (hlims.1.mono_left hg) (hpg.mono fun l hl => hl.major)
    · exact eig cy (hlims.2.1.mono_left hg) (hpg.mono fun l hl => hl.inter)
    · exact eig cz (hlims.2.2.mono_left hg) (hpg.mono fun l hl => hl.minor)
  rw [hp.forms hsymT hP]
  have cw : ∀ j, Tendsto (fun l => ws l j) g (𝓝 (w j)) := fun j => (hw j).mono_left hg
  exact (((h1.mono_left hg).mul ((hdot cx cw).pow 2)).add ((hb.mono_left hg).mul ((hdot cy cw).pow 2))).add
    ((hc.mono_left hg).mul ((hdot cz cw).pow 2))

/-- The ellipsoids `es i` approach `e`. -/
structure Near (F : Filter ι) (es : ι → Ellipsoid) (e : Ellipsoid) : Prop where
  q : Tendsto (fun i => (es i).q) F (𝓝 e.q)
  s : Tendsto (fun i => (es i).s) F (𝓝 e.s)
  surf : ∃ θ : ι → ℝ, Tendsto θ F (𝓝 0) ∧ ∀ᶠ i in F, ∀ w,
    |ellipsoidal2 (es i).major (es i).inter (es i).minor (es i).q (es i).s w - ellipsoidal2 e.major e.inter e.minor e.q e.s w| ≤
      θ i * ellipsoidal2 e.major e.inter e.minor e.q e.s w
  inner : ∀ {ds δs : ι → ℝ} {d δ : ℝ}, Tendsto ds F (𝓝 d) → Tendsto δs F (𝓝 δ) → d ≠ δ → e.q * d ≠ δ → e.s * d ≠ δ →
    ∀ {ws : ι → Vec ℝ} {w : Vec ℝ}, (∀ j, Tendsto (fun i => ws i j) F (𝓝 (w j))) →
      Tendsto (fun i => inner2 (ds i) (δs i) (es i) (ws i)) F (𝓝 (inner2 d δ e w))

theorem Near.radius {es : ι → Ellipsoid} {e : Ellipsoid} (h : Near F es e) {w : ι → Vec ℝ} {w₀ : Vec ℝ}
    (hw : ∀ j, Tendsto (fun i => w i j) F (𝓝 (w₀ j))) :
    Tendsto (fun i => ellipsoidal2 (es i).major (es i).inter (es i).minor (es i).q (es i).s (w i)) F
      (𝓝 (ellipsoidal2 e.major e.inter e.minor e.q e.s w₀)) := by
  obtain ⟨θ, hθ, hsurf⟩ := h.surf
  have hd : ∀ u : Vec ℝ, Tendsto (fun i => dot u (w i)) F (𝓝 (dot u w₀)) := by
    intro u
    unfold dot
    exact (((hw 0).const_mul _).add ((hw 1).const_mul _)).add ((hw 2).const_mul _)
  have hE : Tendsto (fun i => ellipsoidal2 e.major e.inter e.minor e.q e.s (w i)) F (𝓝 (ellipsoidal2 e.major e.inter e.minor e.q e.s w₀)) := by
    unfold ellipsoidal2
    exact (((hd _).pow 2).add (((hd _).pow 2).div_const _)).add (((hd _).pow 2).div_const _)
  have h0 : Tendsto (fun i => θ i * ellipsoidal2 e.major e.inter e.minor e.q e.s (w i)) F (𝓝 0) := by
    simpa using hθ.mul hE
  have h1 := squeeze_zero_norm' (hsurf.mono fun i hi => by rw [Real.norm_eq_abs]; exact hi (w i)) h0
  simpa using h1.add hE

theorem near_sphere : Near F (fun _ => sphere) sphere := by
  refine ⟨tendsto_const_nhds, tendsto_const_nhds, ⟨fun _ => 0, tendsto_const_nhds, Eventually.of_forall fun _ w => by simp⟩, ?_⟩
  intro ds δs d δ hd hδ n1 n2 n3 ws w hw
  have hdot : ∀ u : Vec ℝ, Tendsto (fun i => dot u (ws i)) F (𝓝 (dot u w)) := by
    intro u
    unfold dot
    exact (((hw 0).const_mul _).add ((hw 1).const_mul _)).add ((hw 2).const_mul _)
  unfold inner2
  refine ((((hdot _).pow 2).div ((hd.sub hδ).pow 2) ?_).add (((hdot _).pow 2).div (((hd.const_mul _).sub hδ).pow 2) ?_)).add
    (((hdot _).pow 2).div (((hd.const_mul _).sub hδ).pow 2) ?_)
  · exact pow_ne_zero 2 (sub_ne_zero.2 n1)
  · exact pow_ne_zero 2 (sub_ne_zero.2 n2)
  · exact pow_ne_zero 2 (sub_ne_zero.2 n3)

/-! ### Sums over the particles inside -/

theorem sum_filter {M : Type} [AddCommMonoid M] (l : List Pt) (f : Pt → Bool) (g : Pt → M) (p₀ : Pt) :
    ((l.filter f).map g).sum = ∑ k ∈ Finset.range l.length, if f (l.getD k p₀) then g (l.getD k p₀) else 0 := by
  induction l with
  | nil => simp
  | cons p l ih =>
    rw [List.length_cons, Finset.sum_range_succ', List.filter_cons]
    simp only [List.getD_cons_succ, List.getD_cons_zero]
    rw [← ih]
    cases f p
    · simp
    · simp [add_comm]

open Classical in
theorem members_sum {M : Type} [AddCommMonoid M] (cfg : Config) (e : Ellipsoid) (g : Pt → M) :
    ((members cfg e).map g).sum = ∑ k ∈ Finset.range cfg.pts.length,
      if Inside cfg e.major e.inter e.minor e.q e.s (particle cfg k) then g (particle cfg k) else 0 := by
  unfold members
  rw [sum_filter _ _ g ⟨0, 0, 0⟩]
  simp only [decide_eq_true_eq]
  rfl

open Classical in
theorem members_length (cfg : Config) (e : Ellipsoid) :
    (members cfg e).length = ∑ k ∈ Finset.range cfg.pts.length, if Inside cfg e.major e.inter e.minor e.q e.s (particle cfg k) then 1 else 0 := by
  rw [← members_sum cfg e fun _ => (1 : ℕ)]
  simp

theorem particle_mem (cfg : Config) {k : Nat} (h : k < cfg.pts.length) : particle cfg k ∈ cfg.pts := by
  unfold particle
  rw [List.getD_eq_getElem?_getD, List.getElem?_eq_getElem h]
  exact List.getElem_mem h

theorem mem_particle (cfg : Config) {p : Pt} (h : p ∈ cfg.pts) : ∃ k, k < cfg.pts.length ∧ p = particle cfg k := by
  obtain ⟨k, hk, rfl⟩ := List.getElem_of_mem h
  exact ⟨k, hk, by unfold particle; rw [List.getD_eq_getElem?_getD, List.getElem?_eq_getElem hk]; rfl⟩

variable {cfg : Config} {cfgs : ι → Config}

theorem Approach.rel (h : Approach F cfgs cfg) {k : Nat} (hk : k < cfg.pts.length) (j : Fin 3) :
    Tendsto (fun i => Shapes.rel (cfgs i) (particle (cfgs i) k) j) F (𝓝 (Shapes.rel cfg (particle cfg k) j)) :=
  (h.x k hk j).sub (h.center j)

theorem InnerAxes.reached (hgen : Generic cfg) {n : Nat} {e : Ellipsoid} (hr : Reached cfg n e) (hn : (n : Int) ≤ cfg.wall) : InnerAxes cfg e := by
  cases hr with
  | sphere =>
    intro δ _ hd
    exact ⟨by show (1 : ℝ) * cfg.d ≠ δ; rwa [one_mul], by show (1 : ℝ) * cfg.d ≠ δ; rwa [one_mul]⟩
  | step hr _ hax _ => exact hgen.axes _ _ _ hr (by omega) hax

theorem Approach.some (h : Approach F cfgs cfg) {δ : ℝ} (hδ : cfg.deltaD = some δ) (i : ι) : (cfgs i).deltaD = some ((cfgs i).deltaD.getD 0) := by
  rcases hd : (cfgs i).deltaD with _ | δ'
  · rw [(h.shell i).1 hd] at hδ
    cases hδ
  · rfl

/-- Eventually the same particles are inside. -/
theorem same_inside (h : Approach F cfgs cfg) (hgen : Generic cfg) {n : Nat} {e : Ellipsoid} (hr : Reached cfg n e) (hn : (n : Int) < cfg.wall)
    {es : ι → Ellipsoid} (hnear : Near F es e) :
    ∀ᶠ i in F, ∀ k ∈ Finset.range cfg.pts.length, (Inside (cfgs i) (es i).major (es i).inter (es i).minor (es i).q (es i).s (particle (cfgs i) k) ↔
      Inside cfg e.major e.inter e.minor e.q e.s (particle cfg k)) := by
  rw [Filter.eventually_all_finset]
  intro k hk
  rw [Finset.mem_range] at hk
  have h1 := hnear.radius (h.rel hk)
  have h2 := h.d.pow 2
  have outer : ∀ᶠ i in F, (ellipsoidal2 (es i).major (es i).inter (es i).minor (es i).q (es i).s (Shapes.rel (cfgs i) (particle (cfgs i) k)) <
      (cfgs i).d ^ 2 ↔ ellipsoidal2 e.major e.inter e.minor e.q e.s (Shapes.rel cfg (particle cfg k)) < cfg.d ^ 2) := by
    rcases lt_or_gt_of_ne (hgen.surface n e hr hn _ (particle_mem cfg hk)) with hlt | hgt
    · filter_upwards [h1.eventually_lt h2 hlt] with i hi
      exact iff_of_true hi hlt
    · filter_upwards [h2.eventually_lt h1 hgt] with i hi
      exact iff_of_false (not_lt.2 hi.le) (not_lt.2 hgt.le)
  have within : ∀ᶠ i in F, ((∀ δ, (cfgs i).deltaD = .some δ → (cfgs i).d ≠ δ →
      1 ≤ inner2 (cfgs i).d δ (es i) (Shapes.rel (cfgs i) (particle (cfgs i) k))) ↔
      ∀ δ, cfg.deltaD = .some δ → cfg.d ≠ δ → 1 ≤ inner2 cfg.d δ e (Shapes.rel cfg (particle cfg k))) := by
    rcases hδ : cfg.deltaD with _ | δ
    · refine Eventually.of_forall fun i => iff_of_true (fun δ hd => ?_) (fun δ hd => by cases hd)
      rw [(h.shell i).2 hδ] at hd
      cases hd
    · by_cases hd : cfg.d = δ
      · refine Eventually.of_forall fun i => iff_of_true (fun δ' hd' hne => ?_) (fun δ' hd' hne => ?_)
        · rw [h.innermost (by rw [hδ, hd]) i] at hd'
          exact absurd (Option.some.inj hd') hne
        · exact absurd (hd.trans (Option.some.inj hd')) hne
      · obtain ⟨g1, g2⟩ := InnerAxes.reached hgen hr hn.le δ hδ hd
        have hin := hnear.inner h.d (h.thickness δ hδ) hd g1 g2 (h.rel hk)
        have hne : ∀ᶠ i in F, (cfgs i).d ≠ (cfgs i).deltaD.getD 0 := by
          have := (h.d.sub (h.thickness δ hδ)).eventually_ne (sub_ne_zero.2 hd)
          filter_upwards [this] with i hi hc
          exact hi (sub_eq_zero.2 hc)
        have key : ∀ᶠ i in F, (1 ≤ inner2 (cfgs i).d ((cfgs i).deltaD.getD 0) (es i) (Shapes.rel (cfgs i) (particle (cfgs i) k)) ↔
            1 ≤ inner2 cfg.d δ e (Shapes.rel cfg (particle cfg k))) := by
          rcases lt_or_gt_of_ne (hgen.inner n e hr hn δ hδ hd _ (particle_mem cfg hk)) with hlt | hgt
          · filter_upwards [hin.eventually_lt_const hlt] with i hi
            exact iff_of_false (not_le.2 hi) (not_le.2 hlt)
          · filter_upwards [hin.eventually_const_lt hgt] with i hi
            exact iff_of_true hi.le hgt.le
        filter_upwards [hne, key] with i hi hk'
        constructor
        · intro hall δ' hd' _
          obtain rfl := Option.some.inj hd'
          exact hk'.1 (hall _ (h.some hδ i) hi)
        · intro hall δ' hd' _
          rw [h.some hδ i] at hd'
          obtain rfl := Option.some.inj hd'
          exact hk'.2 (hall δ rfl hd)
  filter_upwards [outer, within] with i ho hw
  rw [inside_iff, inside_iff]
  exact and_congr ho hw

theorem mass_ne_zero {e e' : Ellipsoid} (h : PrincipalAxes cfg e e') : ((members cfg e).map fun p => p.m).sum ≠ 0 := by
  intro h0
  obtain ⟨a, b, c, hp, -⟩ := h.principal
  have hz : ∀ i j, tensorOf cfg e i j = 0 := fun i j => by
    unfold tensorOf massTensor
    rw [h0, div_zero]
  have n := hp.axes.2.2.1
  have hc := hp.pos
  have h1 : ∀ i, e'.minor i = 0 := by
    intro i
    have := hp.minor i
    rw [hz, hz, hz] at this
    have hc2 : c ^ 2 ≠ 0 := by positivity
    simpa [hc2] using this.symm
  unfold dot at n
  rw [h1, h1, h1] at n
  norm_num at n

/-- The shape tensors approach that of the limit. -/
theorem tensor_tendsto (h : Approach F cfgs cfg) (hgen : Generic cfg) {n : Nat} {e : Ellipsoid} (hr : Reached cfg n e) (hw : (n : Int) < cfg.wall)
    {es : ι → Ellipsoid} (hn : Near F es e)
    (hcen : cfg.reduced = true → ∀ p ∈ cfg.pts, ellipsoidal2 e.major e.inter e.minor e.q e.s (Shapes.rel cfg p) ≠ 0)
    (hM : ((members cfg e).map fun p => p.m).sum ≠ 0) (a b : Fin 3) :
    Tendsto (fun i => tensorOf (cfgs i) (es i) a b) F (𝓝 (tensorOf cfg e a b)) := by
  classical
  have hsame := same_inside h hgen hr hw hn
  have hfin : ∀ (g : ι → Nat → ℝ) (g₀ : Nat → ℝ), (∀ k, k < cfg.pts.length → Tendsto (fun i => g i k) F (𝓝 (g₀ k))) →
      Tendsto (fun i => ∑ k ∈ Finset.range cfg.pts.length,
        if Inside (cfgs i) (es i).major (es i).inter (es i).minor (es i).q (es i).s (particle (cfgs i) k) then g i k else 0) F
        (𝓝 (∑ k ∈ Finset.range cfg.pts.length, if Inside cfg e.major e.inter e.minor e.q e.s (particle cfg k) then g₀ k else 0)) := by
    intro g g₀ hg
    have : Tendsto (fun i => ∑ k ∈ Finset.range cfg.pts.length, if Inside cfg e.major e.inter e.minor e.q e.s (particle cfg k) then g i k else 0) F
        (𝓝 (∑ k ∈ Finset.range cfg.pts.length, if Inside cfg e.major e.inter e.minor e.q e.s (particle cfg k) then g₀ k else 0)) := by
      refine tendsto_finsetSum _ fun k hk => ?_
      split
      · exact hg k (Finset.mem_range.1 hk)
      · exact tendsto_const_nhds
    refine this.congr' ?_
    filter_upwards [hsame] with i hi
    refine Finset.sum_congr rfl fun k hk => ?_
    simp only [hi k hk]
  unfold tensorOf massTensor
  simp only [members_sum, h.number, fun i => (h.settings i).2.2.2]
  refine Tendsto.div (hfin _ _ fun k hk => ?_) (hfin _ _ fun k hk => h.m k hk) ?_
  · refine Tendsto.div (((h.m k hk).mul ((h.src k hk a).sub (h.srcCenter a))).mul ((h.src k hk b).sub (h.srcCenter b))) ?_ ?_
    · split
      · exact hn.radius (h.rel hk)
      · exact tendsto_const_nhds
    · split
      · next hr => exact hcen hr _ (particle_mem cfg hk)
      · exact one_ne_zero
  · rw [members_sum] at hM
    exact hM

theorem radius_ne_zero {n : Nat} {e : Ellipsoid} (h : Reached cfg n e) {w : Vec ℝ} (hw : w ≠ 0) :
    ellipsoidal2 e.major e.inter e.minor e.q e.s w ≠ 0 := by
  obtain ⟨ho, hq, hs⟩ : Orthonormal e.major e.inter e.minor ∧ 0 < e.q ∧ 0 < e.s := by
    cases h with
    | sphere => exact ⟨unit_axes, one_pos, one_pos⟩
    | step _ _ hax _ =>
      obtain ⟨a, b, c, hp, hq, hs⟩ := hax.principal
      have hb : 0 < b := hp.pos.trans_le hp.cb
      have ha : 0 < a := hb.trans_le hp.ba
      exact ⟨hp.axes, by rw [hq]; exact div_pos hb ha, by rw [hs]; exact div_pos hp.pos ha⟩
  intro h0
  apply hw
  unfold ellipsoidal2 at h0
  have n1 : 0 ≤ dot e.major w ^ 2 := sq_nonneg _
  have n2 : 0 ≤ dot e.inter w ^ 2 / e.q ^ 2 := by positivity
  have n3 : 0 ≤ dot e.minor w ^ 2 / e.s ^ 2 := by positivity
  have z1 : dot e.major w ^ 2 = 0 := by linarith
  have z2 : dot e.inter w ^ 2 = 0 := by
    have : dot e.inter w ^ 2 / e.q ^ 2 = 0 := by linarith
    rcases div_eq_zero_iff.1 this with h | h
    · exact h
    · exact absurd h (by positivity)
  have z3 : dot e.minor w ^ 2 = 0 := by
    have : dot e.minor w ^ 2 / e.s ^ 2 = 0 := by linarith
    rcases div_eq_zero_iff.1 this with h | h
    · exact h
    · exact absurd h (by positivity)
  have hp := parseval ho w
  rw [z1, z2, z3] at hp
  unfold dot at hp
  funext i
  have h0 := mul_self_nonneg (w 0)
  have h1 := mul_self_nonneg (w 1)
  have h2 := mul_self_nonneg (w 2)
  fin_cases i <;> exact mul_self_eq_zero.1 (by simp only [Fin.zero_eta, Fin.mk_one, Fin.reduceFinMk]; linarith)

/-- One iteration: eventually there are as many particles, and principal axes, which approach those of the limit. -/
theorem step_near (h : Approach F cfgs cfg) (hgen : Generic cfg)
    (hcen : cfg.reduced = true → ∀ p ∈ cfg.pts, Shapes.rel cfg p ≠ 0) {n : Nat} {e e' : Ellipsoid} (hr : Reached cfg n e) (hn : (n : Int) < cfg.wall)
    {es : ι → Ellipsoid} (hnear : Near F es e) (hax : PrincipalAxes cfg e e') :
    ∃ es' : ι → Ellipsoid, Near F es' e' ∧ ∀ᶠ i in F, PrincipalAxes (cfgs i) (es i) (es' i) := by
  have ht := tensor_tendsto h hgen hr hn hnear (fun hred p hp => radius_ne_zero hr (hcen hred p hp)) (mass_ne_zero hax)
  obtain ⟨a, b, c, hp, hq, hs⟩ := hax.principal
  obtain ⟨hex, hlim⟩ := axes_near (Ts := fun i => tensorOf (cfgs i) (es i)) ht (fun i => tensorOf_symm (es i)) hp
  have hchoose : ∀ i, ∃ t : (ℝ × ℝ × ℝ) × (Vec ℝ × Vec ℝ × Vec ℝ),
      (∃ a' b' c' x' y' z', Principal (tensorOf (cfgs i) (es i)) a' b' c' x' y' z') →
        Principal (tensorOf (cfgs i) (es i)) t.1.1 t.1.2.1 t.1.2.2 t.2.1 t.2.2.1 t.2.2.2 := by
    intro i
    by_cases hi : ∃ a' b' c' x' y' z', Principal (tensorOf (cfgs i) (es i)) a' b' c' x' y' z'
    · obtain ⟨a', b', c', x', y', z', hp'⟩ := hi
      exact ⟨((a', b', c'), (x', y', z')), fun _ => hp'⟩
    · exact ⟨((0, 0, 0), (0, 0, 0)), fun h => absurd h hi⟩
  choose t ht' using hchoose
  have hp' : ∀ᶠ i in F, Principal (tensorOf (cfgs i) (es i)) (t i).1.1 (t i).1.2.1 (t i).1.2.2 (t i).2.1 (t i).2.2.1 (t i).2.2.2 :=
    hex.mono fun i hi => ht' i hi
  obtain ⟨lq, ls, θ, hθ, hsurf⟩ := hlim _ _ _ _ _ _ hp'
  refine ⟨fun i => ⟨(t i).2.1, (t i).2.2.1, (t i).2.2.2, (t i).1.2.1 / (t i).1.1, (t i).1.2.2 / (t i).1.1⟩, ⟨?_, ?_, ⟨θ, hθ, ?_⟩, ?_⟩, ?_⟩
  · rw [hq]; exact lq
  · rw [hs]; exact ls
  · rw [hq, hs]; exact hsurf
  · intro ds δs d δ hd hδ n1 n2 n3 ws w hw
    rw [hq] at n2
    rw [hs] at n3
    have hval : ∀ {u : ι → ℝ} {v : ℝ}, Tendsto u F (𝓝 v) → v * d ≠ δ →
        Tendsto (fun i => 1 / (u i * ds i - δs i) ^ 2) F (𝓝 (1 / (v * d - δ) ^ 2)) := by
      intro u v hu hne
      exact tendsto_const_nhds.div (((hu.mul hd).sub hδ).pow 2) (pow_ne_zero 2 (sub_ne_zero.2 hne))
    have := forms_near ht (tensorOf_symm e) (fun i => tensorOf_symm (es i)) hp hp' (fun i u => 1 / (u * ds i - δs i) ^ 2)
      (fun u => 1 / (u * d - δ) ^ 2) (hval tendsto_const_nhds (by rwa [one_mul])) (hval lq n2) (hval ls n3) hw
    unfold inner2
    rw [hq, hs]
    simpa only [one_mul, one_div, inv_mul_eq_div] using this
  · filter_upwards [hp'] with i hi
    exact ⟨hi.axes, _, _, _, hi.pos, hi.cb, hi.ba, rfl, rfl, hi.major, hi.inter, hi.minor⟩

theorem length_near (h : Approach F cfgs cfg) (hgen : Generic cfg) {n : Nat} {e : Ellipsoid} (hr : Reached cfg n e)
    (hn : (n : Int) < cfg.wall) {es : ι → Ellipsoid} (hnear : Near F es e) :
    ∀ᶠ i in F, (members (cfgs i) (es i)).length = (members cfg e).length := by
  classical
  filter_upwards [same_inside h hgen hr hn hnear] with i hi
  rw [members_length, members_length, h.number i]
  refine Finset.sum_congr rfl fun k hk => ?_
  simp only [hi k hk]

/-- Eventually the ratios settle, or not, as for the limit. -/
theorem settled_near (h : Approach F cfgs cfg) (hgen : Generic cfg) {n : Nat} {e e' : Ellipsoid} (hr : Reached cfg n e) (hn : (n : Int) < cfg.wall)
    (hax : PrincipalAxes cfg e e') {es es' : ι → Ellipsoid} (hnear : Near F es e) (hnear' : Near F es' e') :
    ∀ᶠ i in F, (Settled (cfgs i) (es i) (es' i) ↔ Settled cfg e e') := by
  obtain ⟨cq, cs⟩ := hgen.change n e e' hr hn hax
  have one : ∀ (u u' : ι → ℝ) (v v' : ℝ), Tendsto u F (𝓝 v) → Tendsto u' F (𝓝 v') → |v' - v| ≠ cfg.tol * v →
      ∀ᶠ i in F, (|u' i - u i| ≤ cfg.tol * u i ↔ |v' - v| ≤ cfg.tol * v) := by
    intro u u' v v' hu hu' hne
    have l1 := (hu'.sub hu).abs
    have l2 := hu.const_mul cfg.tol
    rcases lt_or_gt_of_ne hne with hlt | hgt
    · filter_upwards [l1.eventually_lt l2 hlt] with i hi
      exact iff_of_true hi.le hlt.le
    · filter_upwards [l2.eventually_lt l1 hgt] with i hi
      exact iff_of_false (not_le.2 hi) (not_le.2 hgt)
  filter_upwards [one _ _ _ _ hnear.q hnear'.q cq, one _ _ _ _ hnear.s hnear'.s cs] with i hi hj
  unfold Settled
  rw [(h.settings i).1]
  exact and_congr hi hj

theorem thin_near (h : Approach F cfgs cfg) {e : Ellipsoid} (hin : InnerAxes cfg e) {es : ι → Ellipsoid} (hnear : Near F es e) :
    ∀ᶠ i in F, InnerAxes (cfgs i) (es i) := by
  rcases hδ : cfg.deltaD with _ | δ
  · refine Eventually.of_forall fun i δ hd => ?_
    rw [(h.shell i).2 hδ] at hd
    cases hd
  · by_cases hd : cfg.d = δ
    · refine Eventually.of_forall fun i δ' hd' hne => ?_
      rw [h.innermost (by rw [hδ, hd]) i] at hd'
      exact absurd (Option.some.inj hd') hne
    · obtain ⟨g1, g2⟩ := hin δ hδ hd
      have e1 := ((hnear.q.mul h.d).sub (h.thickness δ hδ)).eventually_ne (sub_ne_zero.2 g1)
      have e2 := ((hnear.s.mul h.d).sub (h.thickness δ hδ)).eventually_ne (sub_ne_zero.2 g2)
      filter_upwards [e1, e2] with i h1 h2 δ' hd' _
      rw [h.some hδ i] at hd'
      obtain rfl := Option.some.inj hd'
      exact ⟨sub_ne_zero.1 h1, sub_ne_zero.1 h2⟩

/-- The iteration is followed. -/
theorem path_near (h : Approach F cfgs cfg) (hgen : Generic cfg)
    (hcen : cfg.reduced = true → ∀ p ∈ cfg.pts, Shapes.rel cfg p ≠ 0) {n : Nat} {e : Ellipsoid} (hr : Reached cfg n e) :
    n ≤ cfg.wall.toNat → ∃ es : ι → Ellipsoid, Near F es e ∧ ∀ᶠ i in F, Reached (cfgs i) n (es i) ∧
      ∀ n' e₁ e₂, n' < n → Reached (cfgs i) n' e₁ → PrincipalAxes (cfgs i) e₁ e₂ → InnerAxes (cfgs i) e₂ := by
  induction hr with
  | sphere => exact fun _ => ⟨_, near_sphere, Eventually.of_forall fun i => ⟨.sphere, fun n' e₁ e₂ hn => by omega⟩⟩
  | @step n e e' hr enough axes unsettled ih =>
    intro hn
    have hn' : (n : Int) < cfg.wall := by omega
    obtain ⟨es, hnear, hreach⟩ := ih (by omega)
    obtain ⟨es', hnear', haxes⟩ := step_near h hgen hcen hr hn' hnear axes
    refine ⟨es', hnear', ?_⟩
    filter_upwards [hreach, haxes, length_near h hgen hr hn' hnear, settled_near h hgen hr hn' axes hnear hnear',
      thin_near h (hgen.axes n e e' hr hn' axes) hnear'] with i h1 h2 h3 h4 h5
    refine ⟨.step h1.1 (by rw [h3, (h.settings i).2.2.1]; exact enough) h2 fun hc => unsettled (h4.1 hc), fun n' e₁ e₂ hn'' hr₁ hp₁ => ?_⟩
    rcases Nat.lt_succ_iff_lt_or_eq.1 hn'' with hlt | rfl
    · exact h1.2 n' e₁ e₂ hlt hr₁ hp₁
    · exact InnerAxes.same (forms_next (forms_reached hr₁ h1.1) hp₁ h2) h5

theorem rel_near (h : Approach F cfgs cfg) (hcen : cfg.reduced = true → ∀ p ∈ cfg.pts, Shapes.rel cfg p ≠ 0) :
    ∀ᶠ i in F, (cfgs i).reduced = true → ∀ p ∈ (cfgs i).pts, Shapes.rel (cfgs i) p ≠ 0 := by
  by_cases hred : cfg.reduced = true
  · have : ∀ᶠ i in F, ∀ k ∈ Finset.range cfg.pts.length, Shapes.rel (cfgs i) (particle (cfgs i) k) ≠ 0 := by
      rw [Filter.eventually_all_finset]
      intro k hk
      rw [Finset.mem_range] at hk
      have hne := hcen hred _ (particle_mem cfg hk)
      obtain ⟨j, hj⟩ : ∃ j, Shapes.rel cfg (particle cfg k) j ≠ 0 := by
        by_contra hc
        push Not at hc
        exact hne (funext hc)
      filter_upwards [(h.rel hk j).eventually_ne hj] with i hi hz
      exact hi (by rw [hz]; rfl)
    filter_upwards [this] with i hi _ p hp
    obtain ⟨k, hk, rfl⟩ := mem_particle _ hp
    exact hi k (Finset.mem_range.2 (by rw [← h.number i]; exact hk))
  · exact Eventually.of_forall fun i hi => absurd ((h.settings i).2.2.2 ▸ hi) hred

/-- Outcomes near a classified one are classified and close. -/
theorem classified_near (h : Approach F cfgs cfg) (hgen : Generic cfg)
    (hcen : cfg.reduced = true → ∀ p ∈ cfg.pts, Shapes.rel cfg p ≠ 0) (m : Morph) (hc : Classified cfg m) (ε : ℝ) (hε : 0 < ε) :
    ∀ᶠ i in F, (∀ m', Classified (cfgs i) m' → CloseReports ε m m') ∧ ¬ Unclassifiable (cfgs i) ∧ ¬ Degenerate (cfgs i) := by
  have hcen' := rel_near h hcen
  obtain ⟨n, e, e', hr, hn, hmin, hax, hset, rfl⟩ := hc
  obtain ⟨es, hnear, hreach⟩ := path_near h hgen hcen hr (by omega)
  obtain ⟨es', hnear', haxes⟩ := step_near h hgen hcen hr hn hnear hax
  have hq0 : 0 < e'.q := by
    obtain ⟨a, b, c, hp, hq, -⟩ := hax.principal
    rw [hq]
    exact div_pos (hp.pos.trans_le hp.cb) ((hp.pos.trans_le hp.cb).trans_le hp.ba)
  obtain ⟨θ, hθ, hsurf⟩ := hnear'.surf
  have close : ∀ (u : ι → ℝ) (v : ℝ), Tendsto u F (𝓝 v) → ∀ᶠ i in F, |u i - v| ≤ ε := by
    intro u v hu
    have := (hu.sub_const v).abs
    rw [sub_self, abs_zero] at this
    filter_upwards [this.eventually_lt_const hε] with i hi using hi.le
  filter_upwards [hreach, haxes, length_near h hgen hr hn hnear, settled_near h hgen hr hn hax hnear hnear', hcen', hsurf, thin_near h (hgen.axes n e e' hr hn hax) hnear',
    hθ.eventually_lt_const hε, hnear'.q.eventually_const_lt hq0, close _ _ h.d, close _ _ hnear'.q, close _ _ hnear'.s]
    with i h1 h2 h3 h4 h6 h7 h13 h8 h9 h10 h11 h12
  obtain ⟨g1, g2⟩ := only_settled (cfgs i) h6 h1.1 (by rw [(h.settings i).2.1]; exact hn) (by rw [h3, (h.settings i).2.2.1]; exact hmin) h2
    (h4.2 hset) (fun n' e₁ e₂ hle hr₁ hp₁ => by
      rcases hle.eq_or_lt with rfl | hlt
      · exact InnerAxes.same (forms_next (forms_reached hr₁ h1.1) hp₁ h2) h13
      · exact h1.2 n' e₁ e₂ hlt hr₁ hp₁)
  refine ⟨fun m' hm' => ?_, g2⟩
  obtain ⟨md, mq, ms, mv⟩ := g1 m' hm'
  refine ⟨iff_of_false ?_ ?_, ?_, ?_, ?_, fun _ w => ?_⟩
  · rintro rfl
    have : (0 : ℝ) = (es' i).q := mq
    linarith
  · intro hz
    have : e'.q = 0 := congrArg Morph.q hz
    linarith
  · rw [md]; exact h10
  · rw [mq]; exact h11
  · rw [ms]; exact h12
  · rw [mv]
    refine (h7 w).trans (mul_le_mul_of_nonneg_right h8.le ?_)
    unfold ellipsoidal2
    positivity

/-- Outcomes near a gap are gaps. -/
theorem unclassifiable_near (h : Approach F cfgs cfg) (hgen : Generic cfg)
    (hcen : cfg.reduced = true → ∀ p ∈ cfg.pts, Shapes.rel cfg p ≠ 0) (hu : Unclassifiable cfg) :
    ∀ᶠ i in F, (∀ m', ¬ Classified (cfgs i) m') ∧ ¬ Degenerate (cfgs i) := by
  have hcen' := rel_near h hcen
  obtain ⟨n, e, hr, hn, hgap⟩ : ∃ n e, Reached cfg n e ∧ n ≤ cfg.wall.toNat ∧ (cfg.wall ≤ (n : Int) ∨
      ((n : Int) < cfg.wall ∧ ((members cfg e).length : Int) < cfg.itMin)) := by
    obtain ⟨n, e, hr, hgap⟩ := hu
    rcases lt_or_ge (n : Int) cfg.wall with hlt | hge
    · exact ⟨n, e, hr, by omega, .inr ⟨hlt, by omega⟩⟩
    · rcases Nat.lt_or_ge cfg.wall.toNat n with hlt | hle
      · obtain ⟨e₁, -, r1, -⟩ := reached_before hr _ hlt
        exact ⟨_, e₁, r1, le_rfl, .inl (by omega)⟩
      · exact ⟨n, e, hr, hle, .inl hge⟩
  obtain ⟨es, hnear, hreach⟩ := path_near h hgen hcen hr hn
  have hgap' : ∀ᶠ i in F, (cfgs i).wall ≤ (n : Int) ∨ ((members (cfgs i) (es i)).length : Int) < (cfgs i).itMin := by
    rcases hgap with hw | ⟨hlt, hfew⟩
    · exact Eventually.of_forall fun i => .inl (by rw [(h.settings i).2.1]; exact hw)
    · filter_upwards [length_near h hgen hr hlt hnear] with i hi
      exact .inr (by rw [hi, (h.settings i).2.2.1]; exact hfew)
  filter_upwards [hreach, hgap', hcen'] with i h1 h2 h4
  exact only_gap (cfgs i) h4 h1.1 h2 h1.2

/-- C180, the part that holds. A local shape was found, or reported as a gap, and nothing was decided by a hair's breadth. Then it changes as little
as you like for small changes of the coordinates (and velocities) and masses of the particles, of the centre and of the radius: the reports for data
which approach the given data approach the given report. Ellipsoids and shells, reduced or not. Missing: particles on the surface of an ellipsoid
or shell, and changes of the ratios equal to the tolerance, see `C180_stable_refuted`. -/
theorem C180_stable_partial (h : Approach F cfgs cfg) (hgen : Generic cfg)
    (hcen : cfg.reduced = true → ∀ p ∈ cfg.pts, Shapes.rel cfg p ≠ 0) (hsol : GoodSolver cfg.solver) (hm : ∀ p ∈ cfg.pts, 0 < p.m)
    (htol : cfg.tol < 1) (morph : Morph) (fuel : Nat) (hfuel : cfg.wall.toNat + 1 ≤ fuel)
    (sc : Scratch) (hfit : Fits cfg sc) (m : Morph) (sc₁ : Scratch) (hrun : runAlgo fuel cfg morph sc = some (some (m, sc₁)))
    (ε : ℝ) (hε : 0 < ε) :
    ∀ᶠ i in F, ∀ sc', Fits (cfgs i) sc' → ∃ m' sc₂, runAlgo fuel (cfgs i) morph sc' = some (some (m', sc₂)) ∧ CloseReports ε m m' := by
  have hm' : ∀ᶠ i in F, ∀ p ∈ (cfgs i).pts, 0 < p.m := by
    have : ∀ᶠ i in F, ∀ k ∈ Finset.range cfg.pts.length, 0 < (particle (cfgs i) k).m := by
      rw [Filter.eventually_all_finset]
      intro k hk
      rw [Finset.mem_range] at hk
      exact (h.m k hk).eventually_const_lt (hm _ (particle_mem cfg hk))
    filter_upwards [this] with i hi p hp
    obtain ⟨k, hk, rfl⟩ := mem_particle _ hp
    exact hi k (Finset.mem_range.2 (by rw [← h.number i]; exact hk))
  rcases C105_outcome cfg morph sc hfit hsol hm htol fuel hfuel with ⟨m₁, sc₃, hrun₁, hc⟩ | ⟨sc₃, hrun₁, hu⟩ | ⟨hrun₁, -⟩
  · obtain rfl : m = m₁ := by
      rw [hrun₁] at hrun
      exact ((Prod.mk.inj (Option.some.inj (Option.some.inj hrun))).1).symm
    filter_upwards [classified_near h hgen hcen m hc ε hε, hm'] with i h1 h2
    intro sc' hfit'
    rcases C105_outcome (cfgs i) morph sc' hfit' (h.solver i) h2 (by rw [(h.settings i).1]; exact htol) fuel
      (by rw [(h.settings i).2.1]; exact hfuel) with ⟨m', sc₂, hrun', hc'⟩ | ⟨-, -, hu⟩ | ⟨-, hd⟩
    · exact ⟨m', sc₂, hrun', h1.1 m' hc'⟩
    · exact absurd hu h1.2.1
    · exact absurd hd h1.2.2
  · obtain rfl : m = .zero := by
      rw [hrun₁] at hrun
      exact ((Prod.mk.inj (Option.some.inj (Option.some.inj hrun))).1).symm
    filter_upwards [unclassifiable_near h hgen hcen hu, hm'] with i h1 h2
    intro sc' hfit'
    rcases C105_outcome (cfgs i) morph sc' hfit' (h.solver i) h2 (by rw [(h.settings i).1]; exact htol) fuel
      (by rw [(h.settings i).2.1]; exact hfuel) with ⟨m', sc₂, hrun', hc'⟩ | ⟨sc₂, hrun', -⟩ | ⟨-, hd⟩
    · exact absurd hc' (h1.1 m')
    · refine ⟨_, sc₂, hrun', Iff.rfl, ?_, ?_, ?_, fun hz => absurd rfl hz⟩ <;> rw [sub_self, abs_zero] <;> exact hε.le
    · exact absurd hd h1.2
  · rw [hrun₁] at hrun
    cases hrun

end

/-- C180. However small a change: the centre is moved by `η` from just before to just behind the origin, nothing else; before, a shape is reported
with the ratio of the axes about √(1/2), behind no shape is found. -/
theorem C180_stable_refuted (sol : Solver) (hsol : GoodSolver sol) (morph : Morph) (η : ℝ) (hη : 0 < η) :
    ∃ cfg : Config, ∃ center : Vec ℝ, cfg.solver = sol ∧ cfg.deltaD = none ∧ cfg.reduced = false ∧ (∀ p ∈ cfg.pts, p.src = p.x ∧ p.m = 1) ∧
      cfg.srcCenter = cfg.center ∧ (∀ i, |center i - cfg.center i| ≤ η) ∧
      ∀ sc, Fits cfg sc → ∀ fuel, cfg.wall.toNat + 1 ≤ fuel →
        (∃ m sc', runAlgo fuel cfg morph sc = some (some (m, sc')) ∧ m.d = cfg.d ∧ 1 / 2 ≤ m.q ^ 2 ∧ m.q ^ 2 ≤ 5 / 9) ∧
        ∃ sc', runAlgo fuel { cfg with center := center, srcCenter := center } morph sc = some (some (.zero, sc')) := by
  obtain ⟨t, t0, t1, tη⟩ : ∃ t : ℝ, 0 < t ∧ t ≤ 1 / 100 ∧ 2 * t ≤ η := by
    refine ⟨min (1 / 100) (η / 2), by positivity, min_le_left _ _, ?_⟩
    have := min_le_right (1 / 100) (η / 2)
    linarith
  have hmass : ∀ p ∈ (Round.edgeCfg sol t).pts, p.src = p.x ∧ p.m = 1 := by
    intro p hp
    simp only [Round.edgeCfg, List.mem_cons, List.not_mem_nil, or_false] at hp
    rcases hp with rfl | rfl | rfl | rfl | rfl <;> exact ⟨rfl, rfl⟩
  refine ⟨Round.edgeCfg sol t, ![t, 0, 0], rfl, rfl, rfl, hmass, rfl, ?_, fun sc hf fuel hfuel => ⟨?_, ?_⟩⟩
  · intro i
    fin_cases i
    · show |t - -t| ≤ η
      rw [abs_of_pos (by linarith)]
      linarith
    · show |(0 : ℝ) - 0| ≤ η
      rw [sub_self, abs_zero]; exact hη.le
    · show |(0 : ℝ) - 0| ≤ η
      rw [sub_self, abs_zero]; exact hη.le
  · have hr : Reached (Round.edgeCfg sol t) 1 (Round.edgeShape t) :=
      .step .sphere (by rw [Round.edge_members sol t0 t1 (.inl rfl)]; exact le_refl (5 : Int)) (Round.edge_axes sol t0 t1 (.inl rfl))
        (Round.edge_unsettled sol t0 t1)
    obtain ⟨hm, hm'⟩ := Round.edgeMoment_bounds t0 t1
    obtain ⟨hq, -⟩ := Round.edge_q2 t0 t1
    have hset : Settled (Round.edgeCfg sol t) (Round.edgeShape t) (Round.edgeShape t) := by
      constructor <;> rw [sub_self, abs_zero]
      all_goals exact mul_nonneg (by show (0 : ℝ) ≤ 1 / 100; norm_num) (div_nonneg (Real.sqrt_nonneg _) (Real.sqrt_nonneg _))
    obtain ⟨m, sc', hrun, md, mq, -, -⟩ := Round.exact_reports (Round.edgeCfg sol t) (fun δ h => by cases h) (fun h => by cases h) morph sc hf hsol
      (fun p hp => by rw [(hmass p hp).2]; exact one_pos)
      (by show (1 / 100 : ℝ) < 1; norm_num) hr (by show ((1 : Nat) : Int) < 100; norm_num)
      (by rw [Round.edge_members sol t0 t1 (.inr rfl)]; exact le_refl (5 : Int)) (Round.edge_axes sol t0 t1 (.inr rfl)) hset fuel hfuel
    refine ⟨m, sc', hrun, md, ?_⟩
    rw [mq, hq]
    have hm3 : 0 < Round.edgeMoment t := by linarith
    exact ⟨(le_div_iff₀ hm3).2 (by linarith), (div_le_iff₀ hm3).2 (by linarith)⟩
  · classical
    refine Round.exact_gap { Round.edgeCfg sol t with center := ![t, 0, 0], srcCenter := ![t, 0, 0] } (fun δ h => by cases h)
      (fun h => by cases h) morph sc hf hsol (fun p hp => by rw [(hmass p hp).2]; exact one_pos)
      (by show (1 / 100 : ℝ) < 1; norm_num) .sphere (.inr ?_) fuel hfuel
    have hlt : (members { Round.edgeCfg sol t with center := ![t, 0, 0], srcCenter := ![t, 0, 0] } sphere).length < 5 := by
      unfold members
      have h5 : (Round.edgeCfg sol t).pts.length = 5 := rfl
      rw [← h5]
      refine List.length_filter_lt_length_iff_exists.2 ⟨⟨![-1, 0, 0], ![-1, 0, 0], 1⟩, by simp [Round.edgeCfg], ?_⟩
      rw [decide_eq_true_eq, inside_full (fun δ h => by cases h), not_lt]
      have e1 : ellipsoidal2 sphere.major sphere.inter sphere.minor sphere.q sphere.s
          (rel { Round.edgeCfg sol t with center := ![t, 0, 0], srcCenter := ![t, 0, 0] } ⟨![-1, 0, 0], ![-1, 0, 0], 1⟩) = (-1 - t) ^ 2 := by
        simp [ellipsoidal2, sphere, dot, rel]
      rw [e1]
      show (1 : ℝ) ^ 2 ≤ _
      nlinarith
    show _ < (5 : Int)
    exact_mod_cast hlt

/-- The six particles of `farCfg` have a shape that is not decided by a hair's breadth. -/
theorem far_generic (sol : Solver) : Generic (Round.farCfg sol 6) := by
  have hfull : FullEllipsoid (Round.farCfg sol 6) := fun δ h => by cases h
  have hset : Settled (Round.farCfg sol 6) Round.farShape Round.farShape := by
    constructor <;> rw [sub_self, abs_zero]
    · show (0 : ℝ) ≤ 1 / 100 * (2 / 3); norm_num
    · show (0 : ℝ) ≤ 1 / 100 * (1 / 3); norm_num
  have huns : ¬ Settled (Round.farCfg sol 6) sphere Round.farShape := by
    rintro ⟨h, -⟩
    have h' : |(2 / 3 : ℝ) - 1| ≤ 1 / 100 * 1 := h
    rw [abs_le] at h'
    linarith [h'.1]
  have hr1 : Reached (Round.farCfg sol 6) 1 Round.farShape :=
    .step .sphere (by rw [Round.far_members sol 6 (.inl rfl)]; exact le_refl (6 : Int)) (Round.far_axes sol 6 (.inl rfl)) huns
  have cases : ∀ n e, Reached (Round.farCfg sol 6) n e → ∃ e₀, (e₀ = sphere ∨ e₀ = Round.farShape) ∧ SameSurfaces e e₀ := by
    intro n e hr
    match n with
    | 0 => exact ⟨sphere, .inl rfl, reached_unique hfull hr .sphere⟩
    | 1 => exact ⟨_, .inr rfl, reached_unique hfull hr hr1⟩
    | k + 2 =>
      exfalso
      obtain ⟨e₁, e₂, r1, p1, u1, -⟩ := reached_before hr 1 (by omega)
      have hs := reached_unique hfull r1 hr1
      exact u1 ((settled_same hs (step_unique hfull hs p1 (Round.far_axes sol 6 (.inr rfl)))).2 hset)
  constructor
  · intro n e hr _ p hp
    obtain ⟨e₀, he₀, hs⟩ := cases n e hr
    rw [hs.surf]
    obtain ⟨h1, h2⟩ := Round.far_radii sol 6 he₀
    have hd : (Round.farCfg sol 6).d ^ 2 = 100 := by show (10 : ℝ) ^ 2 = 100; norm_num
    rw [hd]
    rcases List.mem_append.1 hp with h | h
    · have := h1 p h
      intro hc
      linarith
    · have := h2 p h
      intro hc
      linarith
  · intro n e _ _ δ hδ
    cases hδ
  · intro n e e' _ _ _ δ hδ
    cases hδ
  · intro n e e' hr _ hax
    obtain ⟨e₀, he₀, hs⟩ := cases n e hr
    have hs' := step_unique hfull hs hax (Round.far_axes sol 6 he₀)
    rw [hs.q, hs.s, hs'.q, hs'.s]
    rcases he₀ with rfl | rfl
    · show |(2 / 3 : ℝ) - 1| ≠ 1 / 100 * 1 ∧ |(1 / 3 : ℝ) - 1| ≠ 1 / 100 * 1
      constructor <;> rw [abs_of_nonpos (by norm_num)] <;> norm_num
    · show |(2 / 3 : ℝ) - 2 / 3| ≠ 1 / 100 * (2 / 3) ∧ |(1 / 3 : ℝ) - 1 / 3| ≠ 1 / 100 * (1 / 3)
      constructor <;> rw [sub_self, abs_zero] <;> norm_num

/-- The hypotheses of `C180_stable_partial` are met: the centre of `farCfg` approaches the origin. -/
example (sol : Solver) (hsol : GoodSolver sol) (morph : Morph) (sc : Scratch) (hfit : Fits (Round.farCfg sol 6) sc) :
    ∃ m sc₁, runAlgo 101 (Round.farCfg sol 6) morph sc = some (some (m, sc₁)) ∧ ∀ ε : ℝ, 0 < ε →
      ∀ᶠ i : ℕ in atTop, ∀ sc', Fits (Round.farCfg sol 6) sc' → ∃ m' sc₂,
        runAlgo 101 { Round.farCfg sol 6 with center := fun _ => 1 / ((i : ℝ) + 1), srcCenter := fun _ => 1 / ((i : ℝ) + 1) } morph sc' =
          some (some (m', sc₂)) ∧ CloseReports ε m m' := by
  have hm : ∀ p ∈ (Round.farCfg sol 6).pts, 0 < p.m := by
    intro p hp
    simp only [Round.farCfg, Round.axisCfg, List.cons_append, List.nil_append, List.mem_cons, List.not_mem_nil, or_false] at hp
    rcases hp with rfl | rfl | rfl | rfl | rfl | rfl | rfl | rfl <;> exact one_pos
  have htol : (Round.farCfg sol 6).tol < 1 := by show (1 / 100 : ℝ) < 1; norm_num
  have huns : ¬ Settled (Round.farCfg sol 6) sphere Round.farShape := by
    rintro ⟨h, -⟩
    have h' : |(2 / 3 : ℝ) - 1| ≤ 1 / 100 * 1 := h
    rw [abs_le] at h'
    linarith [h'.1]
  have hset : Settled (Round.farCfg sol 6) Round.farShape Round.farShape := by
    constructor <;> rw [sub_self, abs_zero]
    · show (0 : ℝ) ≤ 1 / 100 * (2 / 3); norm_num
    · show (0 : ℝ) ≤ 1 / 100 * (1 / 3); norm_num
  obtain ⟨m, sc₁, hrun, -⟩ := Round.exact_reports (Round.farCfg sol 6) (fun δ h => by cases h) (fun h => by cases h) morph sc hfit hsol hm htol
    (.step .sphere (by rw [Round.far_members sol 6 (.inl rfl)]; exact le_refl (6 : Int)) (Round.far_axes sol 6 (.inl rfl)) huns)
    (by show ((1 : Nat) : Int) < 100; norm_num) (by rw [Round.far_members sol 6 (.inr rfl)]; exact le_refl (6 : Int))
    (Round.far_axes sol 6 (.inr rfl)) hset 101 (by show 101 ≤ 101; norm_num)
  refine ⟨m, sc₁, hrun, fun ε hε => ?_⟩
  refine C180_stable_partial (F := atTop) (cfg := Round.farCfg sol 6)
    (cfgs := fun i : ℕ => { Round.farCfg sol 6 with center := fun _ => 1 / ((i : ℝ) + 1), srcCenter := fun _ => 1 / ((i : ℝ) + 1) })
    ⟨fun i => ⟨rfl, rfl, rfl, rfl⟩, fun i => Iff.rfl, fun δ hδ => (by cases hδ), fun hδ => (by cases hδ), fun i => hsol, fun i => rfl,
      tendsto_const_nhds, fun j => ?_, fun j => ?_,
      fun k _ j => tendsto_const_nhds, fun k _ j => tendsto_const_nhds, fun k _ => tendsto_const_nhds⟩
    (far_generic sol) (fun h => by cases h) hsol hm htol morph 101 (by show 101 ≤ 101; norm_num) sc hfit m sc₁ hrun ε hε
  · exact tendsto_one_div_add_atTop_nhds_zero_nat
  · exact tendsto_one_div_add_atTop_nhds_zero_nat

/-- Six particles in a shell of thickness 5 and radius 6. -/
noncomputable def shellCfg (sol : Solver) : Config :=
  { Round.axisCfg sol with
    pts := [⟨![5, 0, 0], ![5, 0, 0], 1⟩, ⟨![-5, 0, 0], ![-5, 0, 0], 1⟩, ⟨![0, 4, 0], ![0, 4, 0], 1⟩, ⟨![0, -4, 0], ![0, -4, 0], 1⟩,
      ⟨![0, 0, 3], ![0, 0, 3], 1⟩, ⟨![0, 0, -3], ![0, 0, -3], 1⟩],
    d := 6, deltaD := some 5 }

/-- Their shape. -/
noncomputable def shellShape : Ellipsoid := ⟨![1, 0, 0], ![0, 1, 0], ![0, 0, 1], 4 / 5, 3 / 5⟩

theorem shell_rel (sol : Solver) (v w : Vec ℝ) (m : ℝ) : rel (shellCfg sol) ⟨v, w, m⟩ = v := by
  funext i
  show v i - (0 : Vec ℝ) i = v i
  simp

theorem shell_radii (sol : Solver) {e : Ellipsoid} (he : e = sphere ∨ e = shellShape) : ∀ p ∈ (shellCfg sol).pts,
    ellipsoidal2 e.major e.inter e.minor e.q e.s (rel (shellCfg sol) p) < 36 ∧ 1 < inner2 6 5 e (rel (shellCfg sol) p) := by
  intro p hp
  simp only [shellCfg, List.mem_cons, List.not_mem_nil, or_false] at hp
  rcases he with rfl | rfl <;> rcases hp with rfl | rfl | rfl | rfl | rfl | rfl <;> rw [shell_rel] <;>
    constructor <;> simp [ellipsoidal2, inner2, sphere, shellShape, dot] <;> norm_num

theorem shell_members (sol : Solver) {e : Ellipsoid} (he : e = sphere ∨ e = shellShape) : members (shellCfg sol) e = (shellCfg sol).pts := by
  classical
  unfold members
  rw [List.filter_eq_self]
  intro p hp
  obtain ⟨h1, h2⟩ := shell_radii sol he p hp
  rw [decide_eq_true_eq, inside_iff]
  refine ⟨by show _ < (6 : ℝ) ^ 2; linarith, fun δ hδ _ => ?_⟩
  obtain rfl : (5 : ℝ) = δ := Option.some.inj hδ
  exact h2.le

theorem shell_axes (sol : Solver) {e : Ellipsoid} (he : e = sphere ∨ e = shellShape) : PrincipalAxes (shellCfg sol) e shellShape := by
  have h3 : 0 < √(1 / 3 : ℝ) := by positivity
  have hsq : √(1 / 3 : ℝ) ^ 2 = 1 / 3 := Real.sq_sqrt (by norm_num)
  refine ⟨unit_axes, 5 * √(1 / 3), 4 * √(1 / 3), 3 * √(1 / 3), by positivity, by linarith, by linarith, ?_, ?_, ?_, ?_, ?_⟩
  · show (4 / 5 : ℝ) = _
    field_simp
  · show (3 / 5 : ℝ) = _
    field_simp
  all_goals
    intro i
    unfold tensorOf massTensor
    rw [shell_members sol he]
    fin_cases i <;> simp [shellCfg, Round.axisCfg, shellShape, mul_pow, hsq] <;> norm_num

theorem shell_generic (sol : Solver) : Generic (shellCfg sol) := by
  have hset : Settled (shellCfg sol) shellShape shellShape := by
    constructor <;> rw [sub_self, abs_zero]
    · show (0 : ℝ) ≤ 1 / 100 * (4 / 5); norm_num
    · show (0 : ℝ) ≤ 1 / 100 * (3 / 5); norm_num
  have huns : ¬ Settled (shellCfg sol) sphere shellShape := by
    rintro ⟨h, -⟩
    have h' : |(4 / 5 : ℝ) - 1| ≤ 1 / 100 * 1 := h
    rw [abs_le] at h'
    linarith [h'.1]
  have hr1 : Reached (shellCfg sol) 1 shellShape :=
    .step .sphere (by rw [shell_members sol (.inl rfl)]; exact le_refl (6 : Int)) (shell_axes sol (.inl rfl)) huns
  have cases : ∀ n e, Reached (shellCfg sol) n e → ∃ e₀, (e₀ = sphere ∨ e₀ = shellShape) ∧ SameForms e e₀ := by
    intro n e hr
    match n with
    | 0 => exact ⟨sphere, .inl rfl, forms_reached hr .sphere⟩
    | 1 => exact ⟨_, .inr rfl, forms_reached hr hr1⟩
    | k + 2 =>
      exfalso
      obtain ⟨e₁, e₂, r1, p1, u1, -⟩ := reached_before hr 1 (by omega)
      have hs := forms_reached r1 hr1
      exact u1 ((settled_same hs.surfaces (forms_next hs p1 (shell_axes sol (.inr rfl))).surfaces).2 hset)
  constructor
  · intro n e hr _ p hp
    obtain ⟨e₀, he₀, hs⟩ := cases n e hr
    rw [hs.surf]
    have := (shell_radii sol he₀ p hp).1
    show _ ≠ (6 : ℝ) ^ 2
    intro hc
    linarith
  · intro n e hr _ δ hδ _ p hp
    obtain ⟨e₀, he₀, hs⟩ := cases n e hr
    obtain rfl : (5 : ℝ) = δ := Option.some.inj hδ
    rw [hs.inner]
    exact (shell_radii sol he₀ p hp).2.ne'
  · intro n e e' hr _ hax
    obtain ⟨e₀, he₀, hs⟩ := cases n e hr
    refine InnerAxes.same (forms_next hs hax (shell_axes sol he₀)) fun δ hδ _ => ?_
    obtain rfl : (5 : ℝ) = δ := Option.some.inj hδ
    constructor
    · show (4 / 5 : ℝ) * 6 ≠ 5; norm_num
    · show (3 / 5 : ℝ) * 6 ≠ 5; norm_num
  · intro n e e' hr _ hax
    obtain ⟨e₀, he₀, hs⟩ := cases n e hr
    have hs' := forms_next hs hax (shell_axes sol he₀)
    rw [hs.q, hs.s, hs'.q, hs'.s]
    rcases he₀ with rfl | rfl
    · show |(4 / 5 : ℝ) - 1| ≠ 1 / 100 * 1 ∧ |(3 / 5 : ℝ) - 1| ≠ 1 / 100 * 1
      constructor <;> rw [abs_of_nonpos (by norm_num)] <;> norm_num
    · show |(4 / 5 : ℝ) - 4 / 5| ≠ 1 / 100 * (4 / 5) ∧ |(3 / 5 : ℝ) - 3 / 5| ≠ 1 / 100 * (3 / 5)
      constructor <;> rw [sub_self, abs_zero] <;> norm_num

/-- The hypotheses of `C180_stable_partial` are met by a shell whose thickness and radius change. -/
example (sol : Solver) (hsol : GoodSolver sol) : Generic (shellCfg sol) ∧ Reached (shellCfg sol) 1 shellShape ∧
    Approach atTop (fun i : ℕ => { shellCfg sol with d := 6 + 1 / ((i : ℝ) + 1), deltaD := some (5 - 1 / ((i : ℝ) + 1)) }) (shellCfg sol) := by
  refine ⟨shell_generic sol, .step .sphere (by rw [shell_members sol (.inl rfl)]; exact le_refl (6 : Int))
    (shell_axes sol (.inl rfl)) ?_, ?_⟩
  · rintro ⟨h, -⟩
    have h' : |(4 / 5 : ℝ) - 1| ≤ 1 / 100 * 1 := h
    rw [abs_le] at h'
    linarith [h'.1]
  · have h0 : Tendsto (fun i : ℕ => 1 / ((i : ℝ) + 1)) atTop (𝓝 0) := tendsto_one_div_add_atTop_nhds_zero_nat
    refine ⟨fun i => ⟨rfl, rfl, rfl, rfl⟩, fun i => ⟨fun h => (by cases h), fun h => (by cases h)⟩, fun δ hδ => ?_, fun hδ => ?_, fun i => hsol,
      fun i => rfl, ?_, fun j => tendsto_const_nhds, fun j => tendsto_const_nhds, fun k _ j => tendsto_const_nhds,
      fun k _ j => tendsto_const_nhds, fun k _ => tendsto_const_nhds⟩
    · obtain rfl : (5 : ℝ) = δ := Option.some.inj hδ
      show Tendsto (fun i : ℕ => 5 - 1 / ((i : ℝ) + 1)) atTop (𝓝 5)
      simpa using h0.const_sub 5
    · have h56 : (5 : ℝ) = 6 := Option.some.inj hδ
      norm_num at h56
    · show Tendsto (fun i : ℕ => 6 + 1 / ((i : ℝ) + 1)) atTop (𝓝 6)
      simpa using h0.const_add 6

end Verif.Shapes
