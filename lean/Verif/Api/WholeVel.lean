import Verif.Api.DensProps
import Verif.Shapes.Whole
import Verif.Shapes.Boost
import Verif.Shapes.Sampling

/-!
# Velocity dispersions of objects which are contained as a whole (C161)
-/

namespace Verif.Api

open Verif.Periodic Verif.Par Verif.Shapes

/-! ## Specification -/

/-- Mean velocity, weighted by mass. -/
noncomputable def meanVelocity (ps : List Part) : Vec ℝ := fun i => (ps.map fun p => p.mass * p.vel i).sum / (ps.map fun p => p.mass).sum

/-- The velocity dispersion tensor: second moments of the velocities about their mean, divided by the total mass. -/
noncomputable def dispersion (ps : List Part) (i j : Fin 3) : ℝ :=
  (ps.map fun p => p.mass * (p.vel i - meanVelocity ps i) * (p.vel j - meanVelocity ps j)).sum / (ps.map fun p => p.mass).sum

/-- The velocities have dispersions `a ≥ b ≥ c > 0` along the principal axes of the tensor, and all particles are within the sphere which fits
into the ellipsoid of these proportions with semi-major axis `D` around the centre. -/
structure WellInsideVel (D : ℝ) (o : ObjData) (a b c : ℝ) (major inter minor : Vec ℝ) : Prop where
  principal : Principal (dispersion o.particles) a b c major inter minor
  inside : ∀ p ∈ o.particles, Periodic.dist p.pos o.center < c / a * D

/-! ## Proof -/

theorem velocityPts_of_notCrossing (st : Settings) (hL : 0 < st.box) (o : ObjData)
    (h : NotCrossing st.box (o.particles.map fun p => ⟨p.pos, p.mass⟩)) :
    velocityPts st o (fun p => p.vel) = o.particles.map fun p => ⟨p.pos, p.vel, p.mass⟩ := by
  have e : cyRespectPBCNoRef (o.particles.map fun p => p.pos) st.box = o.particles.map fun p => p.pos := by
    cases hps : o.particles with
    | nil => simp [cyRespectPBCNoRef, cyLoop]
    | cons p ps =>
      rw [hps] at h
      simp only [List.map_cons]
      apply C24_images_partial _ _ _ hL
      intro x hx
      obtain ⟨q, hq, rfl⟩ := List.mem_map.1 hx
      have h' := h ⟨p.pos, p.mass⟩ (by simp) ⟨q.pos, q.mass⟩ (List.mem_map.2 ⟨q, by simp [hq], rfl⟩)
      exact ⟨h' 0, h' 1⟩
  unfold velocityPts Shapes.unwrapped
  rw [e]
  induction o.particles with
  | nil => rfl
  | cons p ps ih => simp only [List.map_cons, List.zipWith_cons_cons, ih]

theorem WellInsideVel.contained {st : Settings} {o : ObjData} {a b c : ℝ} {x y z : Vec ℝ} {vc : Vec ℝ}
    (h : WellInsideVel (o.r200 + st.safe) o a b c x y z) (hred : st.reduced = false)
    (hM : (o.particles.map fun p => p.mass).sum ≠ 0)
    (hvc : ∀ i, vc i * (o.particles.map fun p => p.mass).sum = (o.particles.map fun p => p.mass * p.vel i).sum)
    (hpts : velocityPts st o (fun p => p.vel) = o.particles.map fun p => ⟨p.pos, p.vel, p.mass⟩) :
    Contained (st.config (velocityPts st o fun p => p.vel) o.center vc (o.r200 + st.safe) none) a b c x y z ∧
    wholeTensor (st.config (velocityPts st o fun p => p.vel) o.center vc (o.r200 + st.safe) none) = dispersion o.particles := by
  have hmean : vc = meanVelocity o.particles := by
    funext i
    unfold meanVelocity
    rw [eq_div_iff hM, hvc]
  have ht : wholeTensor (st.config (velocityPts st o fun p => p.vel) o.center vc (o.r200 + st.safe) none) = dispersion o.particles := by
    funext i j
    rw [hpts, hmean]
    simp only [wholeTensor, massTensor, Settings.config, dispersion, List.map_map, Function.comp_def, div_one]
  refine ⟨⟨hred, rfl, by rw [ht]; exact h.principal, ?_⟩, ht⟩
  have hP := h.principal
  have hc := hP.pos
  have hb : 0 < b := hc.trans_le hP.cb
  have ha : 0 < a := hb.trans_le hP.ba
  intro p hp
  have hp : p ∈ velocityPts st o fun p => p.vel := hp
  rw [hpts] at hp
  obtain ⟨p', hp', rfl⟩ := List.mem_map.1 hp
  have h1 := h.inside p' hp'
  have h0 : 0 ≤ Periodic.dist p'.pos o.center := Real.sqrt_nonneg _
  have h2 : a * Periodic.dist p'.pos o.center < c * (o.r200 + st.safe) := by
    rw [div_mul_eq_mul_div, lt_div_iff₀ ha] at h1
    linarith
  have h3 : (a * Periodic.dist p'.pos o.center) ^ 2 < (c * (o.r200 + st.safe)) ^ 2 := pow_lt_pow_left₀ h2 (by positivity) two_ne_zero
  have h4 : Periodic.dist p'.pos o.center ^ 2 = dot (fun i => p'.pos i - o.center i) (fun i => p'.pos i - o.center i) := by
    unfold Periodic.dist dot
    rw [Real.sq_sqrt (by positivity)]
    ring
  rw [mul_pow, mul_pow, h4] at h3
  exact h3

theorem dispersion_symm (ps : List Part) (i j : Fin 3) : dispersion ps i j = dispersion ps j i := by
  unfold dispersion
  congr 2
  apply List.map_congr_left
  intro p _
  ring

/-- C161. Global velocity dispersion shapes with the tensor which is not reduced and at least two iterations allowed.  If an object which does
not cross a face of the box has at least `IT_MIN` particles, not all at the same place, all of them well inside the ellipsoid prescribed, then
every execution of the parallel loop stores its mass and one shape: the axis ratios are exactly those of the velocity dispersions along the
principal axes of the dispersion tensor of all its particles, and the axes are principal axes: those with different dispersions are given
up to sign. -/
theorem C161_whole {T : Type} [DecidableEq T] (st : Settings) (hsol : GoodSolver st.solver) (htol0 : 0 ≤ st.tol) (htol : st.tol < 1)
    (hwall : 2 ≤ st.wall) (hred : st.reduced = false) (hbox : 0 < st.box) (objs : List ObjData)
    (largest : Nat) (hl : ∀ o ∈ objs, o.particles.length ≤ largest)
    (scratch : T → ObjScratch) (hs : ∀ t, Inv st .globalVel largest (scratch t)) (init : Option (List Morph))
    (ws : List (Step T Nat ObjScratch Slot))
    (ex : Execution (fun p => (objs[p]?.map (shapeBody st .globalVel)).getD []) (List.range objs.length) ws)
    (k : Nat) (o : ObjData) (hk : objs[k]? = some o) (hm : ∀ p ∈ o.particles, 0 < p.mass)
    (hnc : NotCrossing st.box (o.particles.map fun p => ⟨p.pos, p.mass⟩))
    (hn : st.itMin ≤ (o.particles.length : Int)) (hne : ∃ p ∈ o.particles, ∃ p' ∈ o.particles, p.pos ≠ p'.pos)
    (a b c : ℝ) (major inter minor : Vec ℝ) (hin : WellInsideVel (o.r200 + st.safe) o a b c major inter minor) :
    ∃ m, (runSteps ws ⟨scratch, fun _ => ⟨0, init⟩⟩).out k = ⟨(o.particles.map fun p => p.mass).sum, some [m]⟩ ∧
      m.q = b / a ∧ m.s = c / a ∧ Principal (dispersion o.particles) a b c m.major m.inter m.minor ∧
      (c < b → b < a → UpToSign m.major major ∧ UpToSign m.inter inter ∧ UpToSign m.minor minor) := by
  rw [parallel_shapes st .globalVel objs largest hl scratch hs init ws ex k o hk]
  obtain ⟨p1, hp1, p2, hp2, h12⟩ := hne
  have hM : (o.particles.map fun p => p.mass).sum ≠ 0 := by
    have : 0 < (o.particles.map fun p => p.mass).sum := by
      apply List.sum_pos
      · intro x hx
        obtain ⟨p, hp, rfl⟩ := List.mem_map.1 hx
        exact hm p hp
      · simpa using List.ne_nil_of_mem hp1
    exact this.ne'
  have hpts := velocityPts_of_notCrossing st hbox o hnc
  obtain ⟨vc, hvc, cfg, hcfg, hout⟩ := C42_global_outcome st o hsol (List.ne_nil_of_mem hp1) hm htol
  obtain ⟨hcon, ht⟩ := hin.contained hred hM hvc hpts
  rw [← hcfg] at hcon ht
  have hct : cfg.tol = st.tol := by rw [hcfg]; rfl
  have hcw : cfg.wall = st.wall := by rw [hcfg]; rfl
  have hci : cfg.itMin = st.itMin := by rw [hcfg]; rfl
  have hcp : cfg.pts.length = o.particles.length := by
    rw [hcfg]
    show (velocityPts st o fun p => p.vel).length = _
    rw [hpts, List.length_map]
  rcases hout with ⟨m, e, hcl⟩ | ⟨-, h0 | hun⟩ | ⟨-, hdeg⟩
  · obtain ⟨hq, hs', hP⟩ := hcon.classified (hct ▸ htol0) m hcl
    rw [ht] at hP
    exact ⟨m, by rw [e], hq, hs', hP, fun hcb hba => hin.principal.unique_axes (dispersion_symm _) hP hcb hba⟩
  · refine absurd ((localSpread_zero_iff _).1 h0 ⟨p1.pos, p1.vel, p1.mass⟩ ?_ ⟨p2.pos, p2.vel, p2.mass⟩ ?_) h12
    · rw [hpts]; exact List.mem_map_of_mem hp1
    · rw [hpts]; exact List.mem_map_of_mem hp2
  · exact absurd hun (hcon.classifiable (hct ▸ htol0) (hcw ▸ hwall) (by rw [hci, hcp]; exact hn))
  · exact absurd hdeg (hcon.not_degenerate (hct ▸ htol0))

/-- An object which is well inside: positions and velocities along the coordinate axes, but the object is long where the velocities are small. -/
example : WellInsideVel 100 ⟨[⟨![6, 5, 5], ![3, 0, 0], 1⟩, ⟨![4, 5, 5], ![-3, 0, 0], 1⟩, ⟨![5, 7, 5], ![0, 2, 0], 1⟩, ⟨![5, 3, 5], ![0, -2, 0], 1⟩,
      ⟨![5, 5, 8], ![0, 0, 1], 1⟩, ⟨![5, 5, 2], ![0, 0, -1], 1⟩], ![5, 5, 5], 90⟩
    (√3) (2 / 3 * √3) (1 / 3 * √3) ![1, 0, 0] ![0, 1, 0] ![0, 0, 1] := by
  have h3 : √3 ^ 2 = 3 := Real.sq_sqrt (by norm_num)
  have hp : 0 < √3 := Real.sqrt_pos.2 (by norm_num)
  refine ⟨⟨by positivity, by linarith, by linarith, ?_, ?_, ?_, ?_⟩, ?_⟩
  · simp [Shapes.Orthonormal, dot]
  · intro i
    fin_cases i <;> simp [dispersion, meanVelocity] <;> norm_num
  · intro i
    rw [mul_pow, h3]
    fin_cases i <;> simp [dispersion, meanVelocity] <;> norm_num
  · intro i
    rw [mul_pow, h3]
    fin_cases i <;> simp [dispersion, meanVelocity] <;> norm_num
  · have hr : 1 / 3 * √3 / √3 * 100 = 100 / 3 := by field_simp
    rw [hr]
    intro p hp
    simp only [List.mem_cons, List.not_mem_nil, or_false] at hp
    unfold Periodic.dist
    rw [Real.sqrt_lt' (by norm_num)]
    rcases hp with rfl | rfl | rfl | rfl | rfl | rfl <;> simp <;> norm_num

end Verif.Api
