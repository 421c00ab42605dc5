import Verif.Shapes.Velocity

/-!
# The motion of the observer (C155)
-/

namespace Verif.Shapes

open Verif.Par

/-! ## Specification -/

/-- The same object seen by an observer moving with the velocity `-u`. -/
def boosted (u : Vec ℝ) (o : ObjData) : ObjData := ⟨o.particles.map fun p => ⟨p.pos, p.vel + u, p.mass⟩, o.center, o.r200⟩

/-! ## Proof -/

theorem boosted_masses (u : Vec ℝ) (o : ObjData) : ((boosted u o).particles.map fun p => p.mass) = o.particles.map fun p => p.mass := by
  unfold boosted
  rw [List.map_map]
  rfl

theorem boosted_unwrapped (st : Settings) (u : Vec ℝ) (o : ObjData) : unwrapped st (boosted u o) = unwrapped st o := by
  unfold unwrapped boosted
  simp only [List.map_map]
  rfl

theorem boosted_velocityPts (st : Settings) (u : Vec ℝ) (o : ObjData) :
    velocityPts st (boosted u o) (fun p => p.vel) = (velocityPts st o fun p => p.vel).map fun p => ⟨p.x, p.src + u, p.m⟩ := by
  unfold velocityPts
  rw [boosted_unwrapped, List.map_zipWith]
  unfold boosted
  rw [List.zipWith_map_right]

theorem boosted_mean (u : Vec ℝ) (o : ObjData) (hM : (o.particles.map fun p => p.mass).sum ≠ 0) (vc : Vec ℝ)
    (hvc : velocityMean o (fun p => p.vel) = some vc) : velocityMean (boosted u o) (fun p => p.vel) = some (vc + u) := by
  obtain ⟨w, hw, hmean⟩ := velocityMean_some o hM
  obtain ⟨w', hw', hmean'⟩ := velocityMean_some (boosted u o) (by rw [boosted_masses]; exact hM)
  rw [hvc] at hw
  obtain rfl := Option.some.inj hw
  rw [hw']
  congr 1
  funext i
  have h1 := hmean i
  have h2 := hmean' i
  rw [boosted_masses] at h2
  have e : ((boosted u o).particles.map fun p => p.mass * p.vel i).sum =
      (o.particles.map fun p => p.mass * p.vel i).sum + u i * (o.particles.map fun p => p.mass).sum := by
    unfold boosted
    simp only [List.map_map]
    induction o.particles with
    | nil => simp
    | cons p l ih =>
      simp only [List.map_cons, List.sum_cons, Function.comp, Pi.add_apply] at ih ⊢
      rw [ih]
      ring
  rw [e, ← h1] at h2
  apply mul_right_cancel₀ hM
  rw [h2, Pi.add_apply]
  ring

theorem boosted_spread (st : Settings) (u : Vec ℝ) (o : ObjData) :
    localSpread (velocityPts st (boosted u o) fun p => p.vel) = localSpread (velocityPts st o fun p => p.vel) := by
  rw [boosted_velocityPts]
  unfold localSpread
  simp only [List.length_map, List.foldl_map]

theorem boosted_alone (st : Settings) (u : Vec ℝ) (o : ObjData) (hne : o.particles ≠ []) (hm : ∀ p ∈ o.particles, 0 < p.mass) :
    aloneShapes st .globalVel (boosted u o) = aloneShapes st .globalVel o := by
  have hM : (o.particles.map fun p => p.mass).sum ≠ 0 := by
    have : 0 < (o.particles.map fun p => p.mass).sum := by
      apply List.sum_pos
      · intro x hx
        obtain ⟨p, hp, rfl⟩ := List.mem_map.1 hx
        exact hm p hp
      · simpa using hne
    exact this.ne'
  obtain ⟨vc, hvc, -⟩ := velocityMean_some o hM
  have hvc' := boosted_mean u o hM vc hvc
  unfold aloneShapes
  simp only [hvc, hvc', Option.bind_some]
  unfold pureGlobal
  rw [boosted_spread]
  split
  · rfl
  · unfold pureLoop
    have hsame : ∀ d δ, Same (fun p => ⟨p.x, p.src + u, p.m⟩) 1
        (st.config (velocityPts st o fun p => p.vel) o.center vc d δ)
        (st.config (velocityPts st (boosted u o) fun p => p.vel) (boosted u o).center (vc + u) d δ) := by
      intro d δ
      refine ⟨?_, fun _ _ _ => rfl, ?_, fun _ _ => (one_mul _).symm, one_ne_zero, rfl, rfl, rfl, rfl, rfl, rfl, rfl⟩
      · show (velocityPts st (boosted u o) fun p => p.vel).Perm _
        rw [boosted_velocityPts]
        exact List.Perm.refl _
      · intro p _ i
        show (p.src + u) i - (vc + u) i = p.src i - vc i
        rw [Pi.add_apply, Pi.add_apply]
        ring
    congr 1
    funext row
    unfold pureOne
    rw [(hsame row.1.1 row.1.2).run]
    rfl

/-- C155. Velocity dispersion shapes of whole objects do not depend on the motion of the observer: if the same velocity is added to those of all particles of
an object (for each object another one), every execution of the parallel loop gives the masses and shapes it gives for the original velocities. -/
theorem C155_boost {T T' : Type} [DecidableEq T] [DecidableEq T'] (st : Settings) (objs : List ObjData) (u : ObjData → Vec ℝ)
    (hne : ∀ o ∈ objs, o.particles ≠ []) (hm : ∀ o ∈ objs, ∀ p ∈ o.particles, 0 < p.mass)
    (largest largest' : Nat) (hl : ∀ o ∈ objs, o.particles.length ≤ largest) (hl' : ∀ o ∈ objs, o.particles.length ≤ largest')
    (scratch : T → ObjScratch) (hs : ∀ t, Inv st .globalVel largest (scratch t))
    (scratch' : T' → ObjScratch) (hs' : ∀ t, Inv st .globalVel largest' (scratch' t)) (init init' : Option (List Morph))
    (ws : List (Step T Nat ObjScratch Slot)) (ws' : List (Step T' Nat ObjScratch Slot))
    (ex : Execution (fun p => (objs[p]?.map (shapeBody st .globalVel)).getD []) (List.range objs.length) ws)
    (ex' : Execution (fun p => ((objs.map fun o => boosted (u o) o)[p]?.map (shapeBody st .globalVel)).getD [])
      (List.range (objs.map fun o => boosted (u o) o).length) ws')
    (p : Nat) (hp : p < objs.length) :
    (runSteps ws' ⟨scratch', fun _ => ⟨0, init'⟩⟩).out p = (runSteps ws ⟨scratch, fun _ => ⟨0, init⟩⟩).out p := by
  rw [parallel_shapes st .globalVel objs largest hl scratch hs init ws ex p _ (List.getElem?_eq_getElem hp),
    parallel_shapes st .globalVel (objs.map fun o => boosted (u o) o) largest' (by
      intro o ho
      obtain ⟨o', ho', rfl⟩ := List.mem_map.1 ho
      simpa [boosted] using hl' o' ho') scratch' hs' init' ws' ex' p (boosted (u objs[p]) objs[p])
      (by rw [List.getElem?_map, List.getElem?_eq_getElem hp]; rfl)]
  rw [boosted_masses, boosted_alone st _ _ (hne _ (List.getElem_mem hp)) (hm _ (List.getElem_mem hp))]

/-- A concrete case: the particles of `crossObj` (velocities 3, 2 and 1 along the axes) with 700 added in one direction: the ratios are 2/3 and 1/3. -/
theorem C155_cross (sol : Solver) (hsol : GoodSolver sol) :
    ∃ m, aloneShapes (crossSettings sol) .globalVel (boosted ![700, 0, 0] crossObj) = some [m] ∧ m.q = 2 / 3 ∧ m.s = 1 / 3 := by
  rw [boosted_alone _ _ _ (by simp [crossObj, crossPts]) (by simp [crossObj, crossPts])]
  exact crossObj_shape sol hsol

end Verif.Shapes
