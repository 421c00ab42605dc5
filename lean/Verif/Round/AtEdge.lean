import Verif.Round.LocalShape
import Verif.Round.CentreProps

/-!
# A particle at the edge (C179)

Whether a local shape is found can depend on the rounding of one distance.
-/

namespace Verif.Round

open Verif.Shapes
open Verif (Vec Particle)

/-! ## Specification -/

/-- Five particles; seen from the centre, which is next to the origin, the first is just within distance 1 and the others well within. -/
noncomputable def edgeCfg (sol : Solver) (t : ℝ) : Config :=
  ⟨[⟨![-1, 0, 0], ![-1, 0, 0], 1⟩, ⟨![0, 1 / 2, 0], ![0, 1 / 2, 0], 1⟩, ⟨![0, -(1 / 2), 0], ![0, -(1 / 2), 0], 1⟩,
    ⟨![0, 0, 1 / 4], ![0, 0, 1 / 4], 1⟩, ⟨![0, 0, -(1 / 4)], ![0, 0, -(1 / 4)], 1⟩], ![-t, 0, 0], ![-t, 0, 0], 1, none, 1 / 100, 100, 5, false, sol⟩

/-- The clear path of the exact iteration comes to its end at `e`: there the ratios clearly settle, or the number of iterations or of particles
does not suffice. -/
def ComesToEnd (cfg : Config) (f ε : ℝ) (n : Nat) (e : Ellipsoid) : Prop :=
  ((n : Int) < cfg.wall ∧ cfg.itMin ≤ ((members cfg e).length : Int) ∧ ∃ e', PrincipalAxes cfg e e' ∧ f ≤ e'.s ∧ ClearlySettled cfg ε e e') ∨
  ((n : Int) ≤ cfg.wall ∧ ((n : Int) = cfg.wall ∨ ((members cfg e).length : Int) < cfg.itMin))

/-! ## Proof -/

/-- Their second moment along the first axis, times 5. -/
noncomputable def edgeMoment (t : ℝ) : ℝ := (1 - t) ^ 2 + 4 * t ^ 2

/-- Their exact shape. -/
noncomputable def edgeShape (t : ℝ) : Ellipsoid :=
  ⟨![1, 0, 0], ![0, 1, 0], ![0, 0, 1], √(1 / 2 / 5) / √(edgeMoment t / 5), √(1 / 8 / 5) / √(edgeMoment t / 5)⟩

theorem edgeMoment_bounds {t : ℝ} (h0 : 0 < t) (h1 : t ≤ 1 / 100) : 9 / 10 < edgeMoment t ∧ edgeMoment t < 1 := by
  unfold edgeMoment
  constructor <;> nlinarith

theorem edge_q2 {t : ℝ} (h0 : 0 < t) (h1 : t ≤ 1 / 100) :
    (edgeShape t).q ^ 2 = 1 / 2 / edgeMoment t ∧ (edgeShape t).s ^ 2 = 1 / 8 / edgeMoment t := by
  obtain ⟨hm, -⟩ := edgeMoment_bounds h0 h1
  have hm0 : 0 < edgeMoment t := by linarith
  constructor
  · show (√(1 / 2 / 5) / √(edgeMoment t / 5)) ^ 2 = _
    rw [div_pow, Real.sq_sqrt (by norm_num), Real.sq_sqrt (by positivity)]
    field_simp
  · show (√(1 / 8 / 5) / √(edgeMoment t / 5)) ^ 2 = _
    rw [div_pow, Real.sq_sqrt (by norm_num), Real.sq_sqrt (by positivity)]
    field_simp

theorem edge_members (sol : Solver) {t : ℝ} (h0 : 0 < t) (h1 : t ≤ 1 / 100) {e : Ellipsoid} (he : e = sphere ∨ e = edgeShape t) :
    members (edgeCfg sol t) e = (edgeCfg sol t).pts := by
  classical
  have hfull : FullEllipsoid (edgeCfg sol t) := fun δ h => by cases h
  obtain ⟨hm, hm'⟩ := edgeMoment_bounds h0 h1
  obtain ⟨hq, hs⟩ := edge_q2 h0 h1
  have hm0 : 0 < edgeMoment t := by linarith
  have hd : (edgeCfg sol t).d ^ 2 = 1 := by show (1 : ℝ) ^ 2 = 1; norm_num
  unfold members
  rw [List.filter_eq_self]
  intro p hp
  rw [decide_eq_true_eq, inside_full hfull, hd]
  simp only [edgeCfg, List.mem_cons, List.not_mem_nil, or_false] at hp
  rcases he with rfl | rfl
  · rcases hp with rfl | rfl | rfl | rfl | rfl <;> simp [ellipsoidal2, sphere, dot, rel, edgeCfg]
    · rw [abs_lt]; constructor <;> linarith
    all_goals nlinarith
  · unfold ellipsoidal2
    rw [hq, hs]
    have y1 : (2 ^ 2 : ℝ)⁻¹ / (2⁻¹ / edgeMoment t) = edgeMoment t / 2 := by field_simp
    have z1 : (4 ^ 2 : ℝ)⁻¹ / (8⁻¹ / edgeMoment t) = edgeMoment t / 2 := by field_simp; norm_num
    rcases hp with rfl | rfl | rfl | rfl | rfl <;> simp [edgeShape, dot, rel, edgeCfg]
    · rw [abs_lt]; constructor <;> linarith
    · rw [y1]; nlinarith
    · rw [y1]; nlinarith
    · rw [z1]; nlinarith
    · rw [z1]; nlinarith

theorem edge_axes (sol : Solver) {t : ℝ} (h0 : 0 < t) (h1 : t ≤ 1 / 100) {e : Ellipsoid} (he : e = sphere ∨ e = edgeShape t) :
    PrincipalAxes (edgeCfg sol t) e (edgeShape t) := by
  obtain ⟨hm, -⟩ := edgeMoment_bounds h0 h1
  have e1 : √(edgeMoment t / 5) ^ 2 = edgeMoment t / 5 := Real.sq_sqrt (by linarith)
  have e2 : √(1 / 2 / 5 : ℝ) ^ 2 = 1 / 2 / 5 := Real.sq_sqrt (by norm_num)
  have e3 : √(1 / 8 / 5 : ℝ) ^ 2 = 1 / 8 / 5 := Real.sq_sqrt (by norm_num)
  refine ⟨unit_axes, √(edgeMoment t / 5), √(1 / 2 / 5), √(1 / 8 / 5), Real.sqrt_pos.2 (by norm_num),
    Real.sqrt_le_sqrt (by norm_num), Real.sqrt_le_sqrt (by linarith), rfl, rfl, ?_, ?_, ?_⟩
  all_goals
    intro i
    unfold tensorOf massTensor
    rw [edge_members sol h0 h1 he]
    simp only [e1, e2, e3]
    fin_cases i <;> simp [edgeCfg, edgeShape, edgeMoment] <;> ring

theorem edge_unsettled (sol : Solver) {t : ℝ} (h0 : 0 < t) (h1 : t ≤ 1 / 100) : ¬ Settled (edgeCfg sol t) sphere (edgeShape t) := by
  obtain ⟨hm, -⟩ := edgeMoment_bounds h0 h1
  obtain ⟨hq, -⟩ := edge_q2 h0 h1
  rintro ⟨h, -⟩
  have hl : 1 / 2 / edgeMoment t ≤ 5 / 9 := by
    rw [div_le_iff₀ (by linarith)]
    linarith
  have hq' : (edgeShape t).q ≤ 3 / 4 := by
    by_contra hc
    push Not at hc
    nlinarith
  have h' : |(edgeShape t).q - 1| ≤ 1 / 100 * 1 := h
  have := (abs_le.1 h').1
  linarith

/-- If the first particle is left out, fewer are selected than there are. -/
theorem select_length_lt {pts : List Pt} {tests : List Bool} (rs : List ℝ) {l : List Bool} (h : tests = false :: l) (hne : 0 < pts.length) :
    (select pts rs tests).length < pts.length := by
  subst h
  unfold select
  rcases pts with _ | ⟨p, ps⟩
  · cases hne
  · rcases rs with _ | ⟨r, rs⟩
    · simp
    · simp only [List.zip_cons_cons, List.filterMap_cons, Bool.false_eq_true, if_false, List.length_cons]
      have := List.length_filterMap_le (fun x : (Pt × ℝ) × Bool => if x.2 = true then some x.1 else none) ((ps.zip rs).zip l)
      have h2 : ((ps.zip rs).zip l).length ≤ ps.length := by
        simp only [List.length_zip]
        omega
      omega

/-- C179. One particle is just within the sphere. With exact arithmetic a shape is found from the five particles, with axis ratios about √(1/2)
and √(1/8); in double precision its distance is rounded to the radius, four particles are left, fewer than `IT_MIN`, and no shape is reported.
All numbers given are double precision numbers. -/
theorem C179_found_refuted (sol : Solver) (hsol : GoodSolver sol) (morph : Morph) :
    ∃ cfg : Config, cfg.solver = sol ∧ cfg.deltaD = none ∧ cfg.reduced = false ∧
      (∀ p ∈ cfg.pts, p.src = p.x ∧ p.m = 1 ∧ ∀ i, float64.Stored (p.x i)) ∧
      cfg.srcCenter = cfg.center ∧ (∀ i, float64.Stored (cfg.center i)) ∧ float64.Stored cfg.d ∧
      (∀ sc, Fits cfg sc → ∀ fuel, cfg.wall.toNat + 1 ≤ fuel → ∃ m sc', runAlgo fuel cfg morph sc = some (some (m, sc')) ∧
        1 / 2 ≤ m.q ^ 2 ∧ m.q ^ 2 ≤ 51 / 100 ∧ 1 / 8 ≤ m.s ^ 2 ∧ m.s ^ 2 ≤ 13 / 100) ∧
      ∀ fuel, 1 ≤ fuel → roundedRun float64 float32 fuel cfg morph = some (some .zero) := by
  have t0 : (0 : ℝ) < 1 / 2 ^ 60 := by norm_num
  have t1 : (1 / 2 ^ 60 : ℝ) ≤ 1 / 1000 := by norm_num
  have e1 : fl 53 (1 : ℝ) = 1 := by
    have := fl_eq (p := 53) (x := (1 : ℝ)) 0 (2 ^ 52) (by norm_num) (by norm_num) (by norm_num)
      (by rw [abs_lt]; constructor <;> norm_num)
    rw [this]; norm_num
  have eh : fl 53 (1 / 2 : ℝ) = 1 / 2 := by
    have := fl_eq (p := 53) (x := (1 / 2 : ℝ)) (-1) (2 ^ 52) (by norm_num) (by norm_num) (by norm_num)
      (by rw [abs_lt]; constructor <;> norm_num)
    rw [this]; norm_num
  have eq : fl 53 (1 / 4 : ℝ) = 1 / 4 := by
    have := fl_eq (p := 53) (x := (1 / 4 : ℝ)) (-2) (2 ^ 52) (by norm_num) (by norm_num) (by norm_num)
      (by rw [abs_lt]; constructor <;> norm_num)
    rw [this]; norm_num
  have e2 : fl 53 (1 / 2 ^ 60 : ℝ) = 1 / 2 ^ 60 := by
    have := fl_eq (p := 53) (x := (1 / 2 ^ 60 : ℝ)) (-60) (2 ^ 52) (by norm_num) (by norm_num) (by norm_num)
      (by rw [abs_lt]; constructor <;> norm_num)
    rw [this]; norm_num
  have e3 : fl 53 (-(1 / 2 ^ 60) + 1 : ℝ) = 1 := by
    have := fl_eq (p := 53) (x := (-(1 / 2 ^ 60) + 1 : ℝ)) (-1) (2 ^ 53) (by norm_num) (by norm_num) (by norm_num)
      (by rw [abs_lt]; constructor <;> norm_num)
    rw [this]; norm_num
  have s1 : float64.rnd 1 = 1 := e1
  have sh : float64.rnd (1 / 2) = 1 / 2 := eh
  have sq : float64.rnd (1 / 4) = 1 / 4 := eq
  have st : float64.rnd (1 / 2 ^ 60) = 1 / 2 ^ 60 := e2
  have sd : float64.rnd (-(1 / 2 ^ 60) - -1) = 1 := by rw [sub_neg_eq_add]; exact e3
  have neg : ∀ x, float64.rnd x = x → float64.rnd (-x) = -x := fun x h => by rw [float64.odd, h]
  have s0 : float64.rnd 0 = 0 := rnd_zero float64
  generalize (1 / 2 ^ 60 : ℝ) = t at *
  have t2 : t ≤ 1 / 100 := by linarith
  refine ⟨edgeCfg sol t, rfl, rfl, rfl, ?_, rfl, ?_, s1, ?_, ?_⟩
  · intro p hp
    simp only [edgeCfg, List.mem_cons, List.not_mem_nil, or_false] at hp
    rcases hp with rfl | rfl | rfl | rfl | rfl <;> refine ⟨rfl, rfl, fun i => ?_⟩ <;> fin_cases i
    all_goals first | exact s0 | exact sh | exact sq | exact neg _ s1 | exact neg _ sh | exact neg _ sq
  · intro i
    fin_cases i
    · exact neg _ st
    · exact s0
    · exact s0
  · intro sc hf fuel hfuel
    have hr : Reached (edgeCfg sol t) 1 (edgeShape t) :=
      .step .sphere (by rw [edge_members sol t0 t2 (.inl rfl)]; exact le_refl (5 : Int)) (edge_axes sol t0 t2 (.inl rfl)) (edge_unsettled sol t0 t2)
    obtain ⟨hm, hm'⟩ := edgeMoment_bounds t0 t2
    obtain ⟨hq, hs⟩ := edge_q2 t0 t2
    have hm2 : 99 / 100 ≤ edgeMoment t := by unfold edgeMoment; nlinarith
    have hset : Settled (edgeCfg sol t) (edgeShape t) (edgeShape t) := by
      constructor
      · rw [sub_self, abs_zero]
        exact mul_nonneg (by show (0 : ℝ) ≤ 1 / 100; norm_num) (div_nonneg (Real.sqrt_nonneg _) (Real.sqrt_nonneg _))
      · rw [sub_self, abs_zero]
        exact mul_nonneg (by show (0 : ℝ) ≤ 1 / 100; norm_num) (div_nonneg (Real.sqrt_nonneg _) (Real.sqrt_nonneg _))
    obtain ⟨m, sc', hrun, -, mq, ms, -⟩ := exact_reports (edgeCfg sol t) (fun δ h => by cases h) (fun h => by cases h) morph sc hf hsol
      (by intro p hp
          simp only [edgeCfg, List.mem_cons, List.not_mem_nil, or_false] at hp
          rcases hp with rfl | rfl | rfl | rfl | rfl <;> exact one_pos)
      (by show (1 / 100 : ℝ) < 1; norm_num) hr (by show ((1 : Nat) : Int) < 100; norm_num)
      (by rw [edge_members sol t0 t2 (.inr rfl)]; exact le_refl (5 : Int)) (edge_axes sol t0 t2 (.inr rfl)) hset fuel hfuel
    refine ⟨m, sc', hrun, ?_⟩
    rw [mq, ms, hq, hs]
    have hm3 : 0 < edgeMoment t := by linarith
    exact ⟨(le_div_iff₀ hm3).2 (by linarith), (div_le_iff₀ hm3).2 (by linarith), (le_div_iff₀ hm3).2 (by linarith),
      (div_le_iff₀ hm3).2 (by linarith)⟩
  · intro fuel hfuel
    obtain ⟨k, rfl⟩ : ∃ k, fuel = k + 1 := ⟨fuel - 1, by omega⟩
    have hp1 : float64.pow 1 2 = 1 := by
      simp [Rounding.pow, s1]
    have hp0 : float64.pow 0 2 = 0 := by
      simp [Rounding.pow, s0]
    have hout : firstTest float64 (edgeCfg sol t) ⟨![-1, 0, 0], ![-1, 0, 0], 1⟩ = false := by
      unfold firstTest norm2
      rw [decide_eq_false_iff_not]
      have x0 : float64.sub ((edgeCfg sol t).center 0) ((![-1, 0, 0] : Vec ℝ) 0) = 1 := sd
      have x1 : float64.sub ((edgeCfg sol t).center 1) ((![-1, 0, 0] : Vec ℝ) 1) = 0 := by
        show float64.rnd (0 - 0) = 0
        rw [sub_zero, s0]
      have x2 : float64.sub ((edgeCfg sol t).center 2) ((![-1, 0, 0] : Vec ℝ) 2) = 0 := by
        show float64.rnd (0 - 0) = 0
        rw [sub_zero, s0]
      have hd : float64.pow (edgeCfg sol t).d 2 = 1 := hp1
      beta_reduce
      rw [x0, x1, x2, hd, hp1, hp0]
      simp [Rounding.add, s1]
    have hsel : ((roundedStart float64 (edgeCfg sol t) morph).sel.length : Int) < 5 := by
      have := select_length_lt (pts := (edgeCfg sol t).pts) (tests := (edgeCfg sol t).pts.map (firstTest float64 (edgeCfg sol t)))
        ((edgeCfg sol t).pts.map fun p => ((ellNorm2 float64 1 1 fun i => float64.sub ((edgeCfg sol t).center i) (p.x i)).map
          fun x => float64.rnd √x).getD 0) (by show firstTest float64 (edgeCfg sol t) _ :: _ = false :: _; rw [hout])
        (by show 0 < 5; norm_num)
      have h5 : (edgeCfg sol t).pts.length = 5 := rfl
      rw [h5] at this
      exact_mod_cast this
    show loop _ (k + 1) _ = _
    unfold loop
    have hstep : roundedStep float64 float32 (edgeCfg sol t) (roundedStart float64 (edgeCfg sol t) morph) = .stop (some .zero) := by
      unfold roundedStep
      have ha : (roundedStart float64 (edgeCfg sol t) morph).err > (edgeCfg sol t).tol := by show (1 : ℝ) > 1 / 100; norm_num
      have hb : ¬ ((roundedStart float64 (edgeCfg sol t) morph).iteration : Int) > (edgeCfg sol t).wall := by
        show ¬ ((1 : Nat) : Int) > 100
        norm_num
      have hc : ((roundedStart float64 (edgeCfg sol t) morph).sel.length : Int) < (edgeCfg sol t).itMin := hsel
      rw [if_pos ha, if_neg hb, if_pos hc]
    rw [hstep]

/-- C179, the part that holds: with no particle close to the edge and no change of the ratios close to the tolerance, a shape is found with
rounding exactly if one is found without. Missing: particles close to the edge, see `C179_found_refuted`. -/
theorem C179_found_partial (R S : Rounding) (hRS : R.u ≤ S.u) (hS : S.u ≤ 1 / 100) (β : ℝ) (hβ0 : 0 ≤ β) (cfg : Config)
    (hsol : BackwardStable β cfg.solver) (hred : cfg.reduced = false) (hell : cfg.deltaD = none) (hm : ∀ p ∈ cfg.pts, 0 < p.m)
    (htol0 : 0 ≤ cfg.tol) (htol : cfg.tol < 1)
    (bound : ℝ) (hbound : bound = 72 * (cfg.pts.length + 8) * R.u + 15 * β) (f : ℝ) (hf : 0 < f) (hf1 : f ≤ 1) (hb : bound ≤ f ^ 2 / 10)
    (μ ε : ℝ) (hμ : μ = bound / f ^ 2) (hε : ε = 8 * S.u + 6 * μ)
    (n : Nat) (e : Ellipsoid) (hpath : ClearPath cfg f μ ε n e) (hend : ComesToEnd cfg f ε n e)
    (morph : Morph) (sol : Solver) (hgood : GoodSolver sol) (sc : Scratch) (hfit : Fits cfg sc) (fuel : Nat) (hfuel : cfg.wall.toNat + 1 ≤ fuel) :
    ∃ m m' sc', roundedRun R S fuel cfg morph = some (some m) ∧ runAlgo fuel { cfg with solver := sol } morph sc = some (some (m', sc')) ∧
      (m = .zero ↔ m' = .zero) := by
  rcases hend with ⟨hn, hmin, e', hax, hflat, hset⟩ | ⟨hn, hgap⟩
  · obtain ⟨m, h1, hc, h2⟩ := C177_local R S hRS hS β hβ0 cfg hsol hred hell hm htol0 htol bound hbound f hf hb μ ε hμ hε n e e' hpath hn hmin hax
      hflat hset morph fuel (by omega)
    obtain ⟨m', sc', h3, -, -, h4⟩ := h2 sol hgood sc hfit fuel hfuel
    have hs : 0 < e'.s := hf.trans_le hflat
    refine ⟨m, m', sc', h1, h3, iff_of_false ?_ ?_⟩
    · rintro rfl
      have h5 : |(0 : ℝ) ^ 2 - e'.s ^ 2| ≤ bound := hc.s
      have h6 := (abs_le.1 h5).1
      have h7 : f ^ 2 ≤ e'.s ^ 2 := pow_le_pow_left₀ hf.le hflat 2
      have h8 : 0 < f ^ 2 := by positivity
      linarith
    · rintro rfl
      have h5 : (0 : ℝ) = e'.s := h4
      linarith
  · obtain ⟨h1, h2⟩ := C177_gap R S hRS hS β hβ0 cfg hsol hred hell hm htol0 htol bound hbound f hf hf1 hb μ ε hμ hε n e hpath hn hgap morph fuel
      (by omega)
    obtain ⟨sc', h3⟩ := h2 sol hgood sc hfit fuel hfuel
    exact ⟨_, _, sc', h1, h3, Iff.rfl⟩

/-- The hypotheses of `C179_found_partial` are met: with `IT_MIN = 7` the six particles of `farCfg` are too few. -/
example (sol : Solver) (hsol : GoodSolver sol) (morph : Morph) (sc : Scratch) (hfit : Fits (farCfg sol 7) sc) (fuel : Nat) (hfuel : 101 ≤ fuel) :
    ∃ m m' sc', roundedRun float64 float32 fuel (farCfg sol 7) morph = some (some m) ∧
      runAlgo fuel (farCfg sol 7) morph sc = some (some (m', sc')) ∧ (m = .zero ↔ m' = .zero) := by
  have u64 : float64.u = (1 / 2) ^ 53 := rfl
  have u32 : float32.u = (1 / 2) ^ 24 := rfl
  have hlen : (farCfg sol 7).pts.length = 8 := rfl
  set bound : ℝ := 72 * ((farCfg sol 7).pts.length + 8) * float64.u + 15 * 0 with hb
  have hbv : bound ≤ 1 / 1000000 := by
    rw [hb, hlen, u64]
    norm_num
  have hb0 : 0 ≤ bound := by
    rw [hb, hlen, u64]
    norm_num
  exact C179_found_partial float64 float32 (by rw [u64, u32]; norm_num) (by rw [u32]; norm_num) 0 le_rfl (farCfg sol 7) (GoodSolver.stable hsol) rfl rfl
    (by intro p hp
        simp only [farCfg, axisCfg, List.cons_append, List.nil_append, List.mem_cons, List.not_mem_nil, or_false] at hp
        rcases hp with rfl | rfl | rfl | rfl | rfl | rfl | rfl | rfl <;> exact one_pos)
    (by show (0 : ℝ) ≤ 1 / 100; norm_num) (by show (1 / 100 : ℝ) < 1; norm_num) bound hb (1 / 3) (by norm_num) (by norm_num)
    (by linarith) _ _ rfl rfl 0 sphere
    (.sphere (far_clear sol 7 (.inl rfl) (div_nonneg hb0 (by norm_num)) (by rw [div_le_iff₀ (by norm_num)]; linarith)))
    (.inr ⟨by show ((0 : Nat) : Int) ≤ 100; norm_num, .inr (by rw [far_members sol 7 (.inl rfl)]; show (6 : Int) < 7; norm_num)⟩)
    morph sol hsol sc hfit fuel hfuel

end Verif.Round
