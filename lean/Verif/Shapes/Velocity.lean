import Verif.Shapes.Outcome

/-!
# Global velocity dispersion shapes (C42)
-/

namespace Verif.Shapes

theorem velocityMean_some (o : ObjData) (hM : (o.particles.map fun p => p.mass).sum ≠ 0) :
    ∃ vc, velocityMean o (fun p => p.vel) = some vc ∧
      ∀ i, vc i * (o.particles.map fun p => p.mass).sum = (o.particles.map fun p => p.mass * p.vel i).sum := by
  refine ⟨_, by unfold velocityMean velocityCenter; rw [if_neg fun h => hM h.2], fun i => ?_⟩
  rw [Periodic.cyCalcCoM_eq]
  have hz : List.zipWith Particle.mk (o.particles.map fun p => p.vel) (o.particles.map fun p => p.mass) =
      o.particles.map fun p => Particle.mk p.vel p.mass := by
    induction o.particles with
    | nil => rfl
    | cons a l ih => simp [ih]
  rw [hz]
  unfold weightedMean totalMass
  simp only [List.map_map, Function.comp_def]
  rw [div_mul_cancel₀ _ hM]

/-- One velocity dispersion shape is one run of the algorithm. -/
theorem aloneShapes_globalVel (st : Settings) (o : ObjData) (vc : Vec ℝ) (hvc : velocityMean o (fun p => p.vel) = some vc)
    (hsp : localSpread (velocityPts st o fun p => p.vel) ≠ 0) :
    aloneShapes st .globalVel o =
      (pureOne (st.config (velocityPts st o fun p => p.vel) o.center vc (o.r200 + st.safe) none)
        { Morph.zero with d := o.r200 + st.safe }).map fun m => [m] := by
  unfold aloneShapes
  simp only [hvc, Option.bind_some]
  unfold pureGlobal
  rw [if_neg hsp]
  unfold pureLoop
  rw [List.replicate_one, List.mapM_cons, List.mapM_nil]
  dsimp only
  cases pureOne (st.config (velocityPts st o fun p => p.vel) o.center vc (o.r200 + st.safe) none)
    { Morph.zero with d := o.r200 + st.safe } <;> rfl

/-- C42, global velocity dispersions: with positive masses and a tolerance below 1 the catalogue entry of an object is
determined by the velocities relative to their mass-weighted mean: a shape of the velocity tensor (C105), or NaN
because the object has no extent or cannot be classified, or an error because the velocities are degenerate. -/
theorem C42_global_outcome (st : Settings) (o : ObjData) (hsol : GoodSolver st.solver) (hne : o.particles ≠ [])
    (hm : ∀ p ∈ o.particles, 0 < p.mass) (htol : st.tol < 1) :
    ∃ vc : Vec ℝ, (∀ i, vc i * (o.particles.map fun p => p.mass).sum = (o.particles.map fun p => p.mass * p.vel i).sum) ∧
      ∃ cfg, cfg = st.config (velocityPts st o fun p => p.vel) o.center vc (o.r200 + st.safe) none ∧
      ((∃ m, aloneShapes st .globalVel o = some [m] ∧ Classified cfg m) ∨
       (aloneShapes st .globalVel o = some [.zero] ∧ (localSpread (velocityPts st o fun p => p.vel) = 0 ∨ Unclassifiable cfg)) ∨
       (aloneShapes st .globalVel o = none ∧ Degenerate cfg)) := by
  have hM : (o.particles.map fun p => p.mass).sum ≠ 0 := by
    obtain ⟨a, l, h⟩ := List.exists_cons_of_ne_nil hne
    have : 0 < (o.particles.map fun p => p.mass).sum := by
      apply List.sum_pos
      · intro x hx
        obtain ⟨p, hp, rfl⟩ := List.mem_map.1 hx
        exact hm p hp
      · simpa using hne
    exact this.ne'
  obtain ⟨vc, hvc, hmean⟩ := velocityMean_some o hM
  refine ⟨vc, hmean, _, rfl, ?_⟩
  by_cases hsp : localSpread (velocityPts st o fun p => p.vel) = 0
  · refine .inr (.inl ⟨?_, .inl hsp⟩)
    unfold aloneShapes
    simp only [hvc, Option.bind_some]
    unfold pureGlobal
    rw [if_pos hsp]
    rfl
  · rw [aloneShapes_globalVel st o vc hvc hsp]
    set cfg := st.config (velocityPts st o fun p => p.vel) o.center vc (o.r200 + st.safe) none with hcfg
    have hpos : ∀ p ∈ cfg.pts, 0 < p.m := by
      intro p hp
      have hp : p ∈ velocityPts st o fun p => p.vel := hp
      unfold velocityPts at hp
      rw [← List.map_uncurry_zip_eq_zipWith] at hp
      obtain ⟨xp, hxp, rfl⟩ := List.mem_map.1 hp
      exact hm _ (List.of_mem_zip hxp).2
    obtain ⟨r, hr⟩ : ∃ r, pureRun (cfg.wall.toNat + 1) cfg { Morph.zero with d := o.r200 + st.safe } = some r := by
      obtain ⟨r, hr⟩ := C34_terminates cfg { Morph.zero with d := o.r200 + st.safe }
        ⟨[], List.replicate cfg.pts.length 0, List.replicate cfg.pts.length 0, 0⟩
      have h := (runAlgo_pure (cfg.wall.toNat + 1) cfg { Morph.zero with d := o.r200 + st.safe }
        ⟨[], List.replicate cfg.pts.length 0, List.replicate cfg.pts.length 0, 0⟩ (by simp) (by simp)).1
      rw [hr _ (le_refl _)] at h
      exact ⟨_, h.symm⟩
    unfold pureOne
    rw [hr]
    rcases pureRun_outcome _ cfg _ _ hsol hpos htol hr with ⟨m, e, hc⟩ | ⟨e, hc⟩ | ⟨e, hc⟩
    · rw [e]; exact .inl ⟨m, rfl, hc⟩
    · rw [e]; exact .inr (.inl ⟨rfl, .inr hc⟩)
    · rw [e]; exact .inr (.inr ⟨rfl, hc⟩)

/-- An object whose six particles move away from its center, as fast as they are far away. -/
def crossObj : ObjData where
  particles := crossPts.map fun p => ⟨p.x, p.src, p.m⟩
  center := ![0, 0, 0]
  r200 := 100

/-- Settings with which its shape is found. -/
noncomputable def crossSettings (sol : Solver) : Settings := ⟨1 / 10, 100, 6, false, false, sol, [1], 0, 0⟩

/-- The velocities of `crossObj` are 3, 2 and 1 along the axes; the shape has the ratios 2/3 and 1/3. -/
theorem crossObj_shape (sol : Solver) (hsol : GoodSolver sol) :
    ∃ m, aloneShapes (crossSettings sol) .globalVel crossObj = some [m] ∧ m.q = 2 / 3 ∧ m.s = 1 / 3 := by
  obtain ⟨vc, hvc, hmean⟩ := velocityMean_some crossObj (by norm_num [crossObj, crossPts])
  have hv : vc = ![0, 0, 0] := by
    funext i
    have := hmean i
    fin_cases i <;> simp [crossObj, crossPts, vec3_2] at this <;> norm_num at this <;> simp [this]
  have hp : velocityPts (crossSettings sol) crossObj (fun p => p.vel) = crossPts := by
    simp [velocityPts, unwrapped, Periodic.cyRespectPBCNoRef, crossSettings, crossObj, crossPts]
  have hc : (crossSettings sol).config (velocityPts (crossSettings sol) crossObj fun p => p.vel) crossObj.center vc
      (crossObj.r200 + (crossSettings sol).safe) none = crossCfg sol := by
    rw [hp, hv]
    simp [Settings.config, crossSettings, crossObj, crossCfg]
  have hsp : localSpread (velocityPts (crossSettings sol) crossObj fun p => p.vel) ≠ 0 := by
    rw [hp]
    have h9 : Real.sqrt 9 = 3 := by rw [show (9 : ℝ) = 3 ^ 2 by norm_num, Real.sqrt_sq (by norm_num)]
    have h4 : Real.sqrt 4 = 2 := by rw [show (4 : ℝ) = 2 ^ 2 by norm_num, Real.sqrt_sq (by norm_num)]
    norm_num [localSpread, crossPts, vec3_2, h9, h4]
  have hal := aloneShapes_globalVel (crossSettings sol) crossObj vc hvc hsp
  rw [hc] at hal
  obtain ⟨x, y, z, -, -, -, hrun⟩ := cross_run sol hsol { Morph.zero with d := crossObj.r200 + (crossSettings sol).safe }
  unfold pureOne at hal
  rw [hrun _ (by simp [crossCfg])] at hal
  simp only [Option.join_some, Option.map_some] at hal
  rcases C42_global_outcome (crossSettings sol) crossObj hsol (by simp [crossObj, crossPts])
    (by simp [crossObj, crossPts]) (by norm_num [crossSettings]) with ⟨-, -, cfg, -, ⟨m, e, hm⟩ | ⟨e, -⟩ | ⟨e, -⟩⟩
  · refine ⟨m, e, ?_⟩
    rw [e] at hal
    simp only [Option.some.injEq, List.cons.injEq, and_true] at hal
    rw [hal]
    exact ⟨rfl, rfl⟩
  · rw [e] at hal
    simp [Morph.zero] at hal
  · rw [e] at hal
    cases hal

end Verif.Shapes
