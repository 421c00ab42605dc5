import Verif.Api.ShapesProps
import Verif.Shapes.Whole

/-!
# Shapes of objects which are contained as a whole (C160)
-/

namespace Verif.Api

open Verif.Units Verif.Catalogue Verif.Periodic Verif.Par Verif.Shapes

/-! ## Specification -/

/-- Second moments of the particles about `v`, divided by their mass (the documented shape tensor with weights 1). -/
noncomputable def spreadAbout (v : Vec ℝ) (ps : List (Particle ℝ)) (i j : Fin 3) : ℝ :=
  (ps.map fun p => p.mass * (p.pos i - v i) * (p.pos j - v j)).sum / (ps.map fun p => p.mass).sum

/-- The object has root-mean-square extents `a ≥ b ≥ c > 0` along its principal axes, and all its particles are within the sphere which
fits into the ellipsoid of these proportions with semi-major axis `D`. -/
structure WellInside (D : ℝ) (ps : List (Particle ℝ)) (a b c : ℝ) (major inter minor : Vec ℝ) : Prop where
  principal : Principal (spreadAbout (weightedMean ps) ps) a b c major inter minor
  inside : ∀ p ∈ ps, Periodic.dist p.pos (weightedMean ps) < c / a * D

/-! ## C160 -/

theorem wholeTensor_task (katz : Katz) (sol : Solver) (ps : List (Particle ℝ)) (v : Vec ℝ) (dδ : ℝ × Option ℝ) :
    wholeTensor (task katz sol ps v dδ) = spreadAbout v ps := by
  funext i j
  simp only [wholeTensor, massTensor, task, spreadAbout, List.map_map, Function.comp_def, div_one]

theorem WellInside.contained {katz : Katz} {ps : List (Particle ℝ)} {D a b c : ℝ} {x y z : Vec ℝ}
    (h : WellInside D ps a b c x y z) (sol : Solver) (hred : katz.reduced = false) :
    Contained (task katz sol ps (weightedMean ps) (D, none)) a b c x y z := by
  have hP := h.principal
  have hc := hP.pos
  have hb : 0 < b := hc.trans_le hP.cb
  have ha : 0 < a := hb.trans_le hP.ba
  refine ⟨hred, rfl, by rw [wholeTensor_task]; exact hP, ?_⟩
  intro p hp
  obtain ⟨p', hp', rfl⟩ := List.mem_map.1 hp
  have h1 := h.inside p' hp'
  have h0 : 0 ≤ Periodic.dist p'.pos (weightedMean ps) := Real.sqrt_nonneg _
  have h2 : a * Periodic.dist p'.pos (weightedMean ps) < c * D := by
    rw [div_mul_eq_mul_div, lt_div_iff₀ ha] at h1
    linarith
  have h3 : (a * Periodic.dist p'.pos (weightedMean ps)) ^ 2 < (c * D) ^ 2 := pow_lt_pow_left₀ h2 (by positivity) two_ne_zero
  have h4 : Periodic.dist p'.pos (weightedMean ps) ^ 2 = dot (fun i => p'.pos i - weightedMean ps i) (fun i => p'.pos i - weightedMean ps i) := by
    unfold Periodic.dist dot
    rw [Real.sq_sqrt (by positivity)]
    ring
  rw [mul_pow, mul_pow, h4] at h3
  exact h3

/-- Particles which all sit at the same place have no extents. -/
theorem WellInside.spread {ps : List (Particle ℝ)} {D a b c : ℝ} {x y z : Vec ℝ} (h : WellInside D ps a b c x y z)
    (hm : ∀ p ∈ ps, 0 < p.mass) : ¬ ∀ p ∈ ps, ∀ p' ∈ ps, p.pos = p'.pos := by
  intro hall
  have hP := h.principal
  have hc := hP.pos
  have hzero : ∀ i j, spreadAbout (weightedMean ps) ps i j = 0 := by
    intro i j
    unfold spreadAbout
    rw [List.sum_eq_zero, zero_div]
    intro t ht
    obtain ⟨p, hp, rfl⟩ := List.mem_map.1 ht
    have hmean : weightedMean ps i = p.pos i := by
      unfold weightedMean totalMass
      have hsum : 0 < (ps.map fun p => p.mass).sum := totalMass_pos ps (List.ne_nil_of_mem hp) hm
      rw [div_eq_iff hsum.ne', mul_comm, ← List.sum_map_mul_right]
      congr 1
      apply List.map_congr_left
      intro p' hp'
      rw [hall p' hp' p hp]
    rw [hmean, sub_self, mul_zero, zero_mul]
  have h1 := hP.minor
  have hz : ∀ i, z i = 0 := by
    intro i
    have := h1 i
    rw [hzero, hzero, hzero, zero_mul, zero_mul, zero_mul, add_zero, add_zero] at this
    exact (mul_eq_zero.1 this.symm).resolve_left (pow_ne_zero 2 hc.ne')
  have := hP.axes.2.2.1
  unfold dot at this
  rw [hz, hz, hz] at this
  norm_num at this

/-- C160. Take sensible data, make an object of it with the centre of mass as centre, and ask for global shapes, or for local shapes of
ellipsoids (not shells), with the tensor which is not reduced and at least two iterations allowed.  If the call returns and an object which does
not cross a face of the box has at least `IT_MIN` particles, all of which are well inside the ellipsoid prescribed, then its entry is
converged, the axis ratios are exactly those of its root-mean-square extents along the principal axes of the second moments of all its
particles, and the axes are principal axes: those with different extents are given up to sign. -/
theorem C160_whole (cf cf' : Cfg ℝ) (hc : cf.Pos) (hc' : cf'.Pos) (hh : cf'.h = cf.h)
    (xyz : List (Vec ℝ)) (masses : List ℝ) (box : ℝ) (objs : List (List Nat × ℝ)) (minPtcs : Int)
    (hmin : 1 ≤ minPtcs) (hs : Sensible xyz masses box objs)
    (hr200 : ∀ o ∈ objs, 0 < o.2) (sol : Solver) (hsol : GoodSolver sol)
    (choose : Nat → List Nat) (hch : ∀ n, 0 < n → ∃ j ∈ choose n, j < n) (limit : Nat) (o : Obj)
    (ho : construct cf ⟨xyz, masses, .nested (objs.map Prod.fst), .array (objs.map Prod.snd), box,
      minPtcs, .com⟩ = .ok o)
    (katz : Katz) (htol0 : 0 ≤ katz.tol) (htol : katz.tol < 1) (hwall : 2 ≤ katz.wall) (hred : katz.reduced = false)
    (hradii : ∀ r ∈ katz.radii, 0 < r) (whole : Bool) (hfull : whole = true ∨ katz.shellBased = false)
    (sel : List Int) (hsel : GoodSelection sel (resolved minPtcs objs).length)
    (res : List (List ShapeEntry)) (hrun : GetShapeCat cf' sol choose limit o katz whole sel (.ok res))
    (k : Nat) (w : Int) (obj : List Nat × ℝ) (hk : sel[k]? = some w)
    (hobj : (resolved minPtcs objs)[w.toNat]? = some obj)
    (hnc : NotCrossing box (particlesOf xyz masses obj.1))
    (hn : katz.itMin ≤ ((particlesOf xyz masses obj.1).length : Int))
    (row : List ShapeEntry) (hrow : res[k]? = some row) (n : Nat) (e : ShapeEntry) (he : row[n]? = some e)
    (a b c : ℝ) (major inter minor : Vec ℝ)
    (hin : WellInside (wantedVolume katz whole obj.2 (6 * mpch cf.h / cf.inL) n).1 (particlesOf xyz masses obj.1)
      a b c major inter minor) :
    e.conv = true ∧ e.q = some (b / a) ∧ e.s = some (c / a) ∧
    ∃ major' inter' minor', Principal (spreadAbout (weightedMean (particlesOf xyz masses obj.1)) (particlesOf xyz masses obj.1))
        a b c major' inter' minor' ∧
      (∀ i, e.major i = shown (major' i) ∧ e.inter i = shown (inter' i) ∧ e.minor i = shown (minor' i)) ∧
      (c < b → b < a → UpToSign major' major ∧ UpToSign inter' inter ∧ UpToSign minor' minor) := by
  rcases C106_shapes_partial cf cf' hc hc' hh xyz masses box objs minPtcs hmin .com hs hr200 sol hsol choose hch limit o ho katz
    htol hradii whole sel hsel _ hrun with h | h | ⟨res', h1, -, h3⟩
  · cases h.1
  · cases h.1
  obtain rfl := Except.ok.inj h1
  obtain ⟨row', g1, -, g3⟩ := h3 k w obj hk hobj
  rw [hrow] at g1
  obtain rfl := Option.some.inj g1
  obtain ⟨sub, -, -, hsub, hans⟩ := g3 hnc
  obtain rfl := hsub rfl
  have hA := hans n e he
  have hvol : wantedVolume katz whole obj.2 (6 * mpch cf.h / cf.inL) n =
      ((wantedVolume katz whole obj.2 (6 * mpch cf.h / cf.inL) n).1, none) := by
    unfold wantedVolume
    rcases hfull with rfl | hf
    · rfl
    · cases whole with
      | true => rfl
      | false => simp [hf]
  rw [hvol] at hA
  have hcon := hin.contained sol hred
  have hmp : ∀ p ∈ particlesOf xyz masses obj.1, 0 < p.mass := fun p hp => hs.masses_pos _ (mem_particlesOf hp).2
  rcases hA with ⟨-, -, -, -, -, hun | hsame⟩ | ⟨m, d, hcl, e1, e2, e3, -, -, e4⟩
  · refine absurd hun (hcon.classifiable htol0 hwall ?_)
    show katz.itMin ≤ (((particlesOf xyz masses obj.1).map _).length : Int)
    rw [List.length_map]
    exact hn
  · refine absurd ?_ (hin.spread hmp)
    intro p hp p' hp'
    exact hsame _ (List.mem_map_of_mem hp) _ (List.mem_map_of_mem hp')
  · obtain ⟨hq, hs', hP⟩ := hcon.classified htol0 m hcl
    rw [wholeTensor_task] at hP
    refine ⟨e1, by rw [e2, hq], by rw [e3, hs'], m.major, m.inter, m.minor, hP, e4, ?_⟩
    intro hcb hba
    refine hin.principal.unique_axes ?_ hP hcb hba
    intro i j
    unfold spreadAbout
    congr 2
    apply List.map_congr_left
    intro p _
    ring

/-- C160. If every selected object is like that (at every radius), the call does return. -/
theorem C160_returns (cf cf' : Cfg ℝ) (hc : cf.Pos) (hc' : cf'.Pos) (hh : cf'.h = cf.h)
    (xyz : List (Vec ℝ)) (masses : List ℝ) (box : ℝ) (objs : List (List Nat × ℝ)) (minPtcs : Int)
    (hmin : 1 ≤ minPtcs) (hs : Sensible xyz masses box objs)
    (hr200 : ∀ o ∈ objs, 0 < o.2) (sol : Solver) (hsol : GoodSolver sol)
    (choose : Nat → List Nat) (hch : ∀ n, 0 < n → ∃ j ∈ choose n, j < n) (limit : Nat) (o : Obj)
    (ho : construct cf ⟨xyz, masses, .nested (objs.map Prod.fst), .array (objs.map Prod.snd), box,
      minPtcs, .com⟩ = .ok o)
    (katz : Katz) (htol0 : 0 ≤ katz.tol) (htol : katz.tol < 1) (hred : katz.reduced = false)
    (hradii : ∀ r ∈ katz.radii, 0 < r) (whole : Bool) (hfull : whole = true ∨ katz.shellBased = false)
    (sel : List Int) (hsel : GoodSelection sel (resolved minPtcs objs).length)
    (hin : ∀ w ∈ sel, ∀ obj, (resolved minPtcs objs)[w.toNat]? = some obj →
      NotCrossing box (particlesOf xyz masses obj.1) ∧ ∀ n, n < wantedColumns katz whole → ∃ a b c major inter minor,
        WellInside (wantedVolume katz whole obj.2 (6 * mpch cf.h / cf.inL) n).1 (particlesOf xyz masses obj.1)
          a b c major inter minor)
    (out : Except ShapeErr (List (List ShapeEntry))) (hrun : GetShapeCat cf' sol choose limit o katz whole sel out) :
    ∃ res, out = .ok res ∧ res.length = sel.length := by
  rcases C106_shapes_partial cf cf' hc hc' hh xyz masses box objs minPtcs hmin .com hs hr200 sol hsol choose hch limit o ho katz
    htol hradii whole sel hsel _ hrun with h | ⟨-, k, w, obj, hk, hobj, hdeg⟩ | ⟨res', h1, h2, -⟩
  · cases h.2
  · obtain ⟨hnc, hall⟩ := hin w (List.mem_of_getElem? hk) obj hobj
    obtain ⟨sub, -, -, hsub, n, hn, hd⟩ := hdeg hnc
    obtain rfl := hsub rfl
    obtain ⟨a, b, c, x, y, z, hw⟩ := hall n hn
    have hvol : wantedVolume katz whole obj.2 (6 * mpch cf.h / cf.inL) n =
        ((wantedVolume katz whole obj.2 (6 * mpch cf.h / cf.inL) n).1, none) := by
      unfold wantedVolume
      rcases hfull with rfl | hf
      · rfl
      · cases whole with
        | true => rfl
        | false => simp [hf]
    rw [hvol] at hd
    exact absurd hd ((hw.contained sol hred).not_degenerate htol0)
  · exact ⟨res', h1, h2⟩

/-- `qs`, stretched by the factors `f` along the coordinate axes and moved to `v`. -/
def stretched (v f : Vec ℝ) (qs : List (Particle ℝ)) : List (Particle ℝ) :=
  qs.map fun p => ⟨fun i => v i + f i * p.pos i, p.mass⟩

/-- C160. The shape of a stretched object: let `qs` be particles around the origin with equal second moments in all directions (for
instance a round object).  Stretched by factors `α ≥ β ≥ γ > 0` they have axis ratios `β / α` and `γ / α` and the coordinate axes as
principal axes, in the sense of `WellInside`, so that `C160_whole` says that exactly these are reported. -/
theorem C160_stretched (qs : List (Particle ℝ)) (hm : ∀ p ∈ qs, 0 < p.mass) (hne : qs ≠ []) (h0 : weightedMean qs = 0)
    (κ : ℝ) (hκ : 0 < κ) (hiso : ∀ i j, spreadAbout 0 qs i j = if i = j then κ else 0) (v : Vec ℝ) (α β γ : ℝ) (hγ : 0 < γ)
    (hγβ : γ ≤ β) (hβα : β ≤ α) (D : ℝ)
    (hin : ∀ p ∈ stretched v ![α, β, γ] qs, Periodic.dist p.pos v < γ / α * D) :
    WellInside D (stretched v ![α, β, γ] qs) (α * √κ) (β * √κ) (γ * √κ) ![1, 0, 0] ![0, 1, 0] ![0, 0, 1] ∧
    β * √κ / (α * √κ) = β / α ∧ γ * √κ / (α * √κ) = γ / α := by
  have hk : 0 < √κ := Real.sqrt_pos.2 hκ
  have hk2 : √κ ^ 2 = κ := Real.sq_sqrt hκ.le
  have hβ : 0 < β := hγ.trans_le hγβ
  have hα : 0 < α := hβ.trans_le hβα
  have hM : 0 < totalMass qs := totalMass_pos qs hne hm
  have hmass : ((stretched v ![α, β, γ] qs).map fun p => p.mass).sum = totalMass qs := by
    unfold stretched totalMass
    rw [List.map_map]
    rfl
  have hmean : weightedMean (stretched v ![α, β, γ] qs) = v := by
    funext i
    have h0i := congrFun h0 i
    unfold weightedMean at h0i ⊢
    rw [show totalMass (stretched v ![α, β, γ] qs) = totalMass qs from hmass, div_eq_iff hM.ne']
    have h0i : (qs.map fun p => p.mass * p.pos i).sum = 0 := by
      rcases div_eq_zero_iff.1 h0i with h | h
      · exact h
      · exact absurd h hM.ne'
    have key : ∀ l : List (Particle ℝ), ((stretched v ![α, β, γ] l).map fun p => p.mass * p.pos i).sum =
        v i * totalMass l + ![α, β, γ] i * (l.map fun p => p.mass * p.pos i).sum := by
      intro l
      induction l with
      | nil => simp [stretched, totalMass]
      | cons p l ih =>
        have ih' : ((stretched v ![α, β, γ] l).map fun p => p.mass * p.pos i).sum =
          v i * (l.map fun p => p.mass).sum + ![α, β, γ] i * (l.map fun p => p.mass * p.pos i).sum := ih
        simp only [stretched, totalMass, List.map_cons, List.sum_cons] at ih' ⊢
        rw [ih']
        ring
    rw [key, h0i, mul_zero, add_zero]
  have hspread : ∀ i j, spreadAbout v (stretched v ![α, β, γ] qs) i j =
      if i = j then ![α, β, γ] i * ![α, β, γ] i * κ else 0 := by
    intro i j
    have h1 := hiso i j
    unfold spreadAbout at h1 ⊢
    rw [hmass]
    have key : ((stretched v ![α, β, γ] qs).map fun p => p.mass * (p.pos i - v i) * (p.pos j - v j)).sum =
        ![α, β, γ] i * ![α, β, γ] j * (qs.map fun p => p.mass * (p.pos i - (0 : Vec ℝ) i) * (p.pos j - (0 : Vec ℝ) j)).sum := by
      rw [← List.sum_map_mul_left]
      unfold stretched
      rw [List.map_map]
      congr 1
      apply List.map_congr_left
      intro p _
      simp only [Function.comp_def, Pi.zero_apply, sub_zero, add_sub_cancel_left]
      ring
    rw [key, mul_div_assoc]
    have h1 : (qs.map fun p => p.mass * (p.pos i - (0 : Vec ℝ) i) * (p.pos j - (0 : Vec ℝ) j)).sum / totalMass qs =
      if i = j then κ else 0 := h1
    rw [h1]
    by_cases hij : i = j
    · subst hij; simp
    · simp [hij]
  refine ⟨⟨?_, ?_⟩, by field_simp, by field_simp⟩
  · rw [hmean]
    refine ⟨by positivity, mul_le_mul_of_nonneg_right hγβ hk.le, mul_le_mul_of_nonneg_right hβα hk.le, ?_, ?_, ?_, ?_⟩
    · simp [Shapes.Orthonormal, dot]
    · intro i
      rw [hspread, hspread, hspread, mul_pow, hk2]
      fin_cases i <;> simp [pow_two]
    · intro i
      rw [hspread, hspread, hspread, mul_pow, hk2]
      fin_cases i <;> simp [pow_two]
    · intro i
      rw [hspread, hspread, hspread, mul_pow, hk2]
      fin_cases i <;> simp [pow_two]
  · rw [hmean]
    intro p hp
    have := hin p hp
    rwa [show γ * √κ / (α * √κ) = γ / α by field_simp]

/-- An object which is well inside: the cross with extents 3, 2, 1 about (5, 5, 5), at distances up to 100. -/
example : WellInside 100 [⟨![8, 5, 5], 1⟩, ⟨![2, 5, 5], 1⟩, ⟨![5, 7, 5], 1⟩, ⟨![5, 3, 5], 1⟩, ⟨![5, 5, 6], 1⟩, ⟨![5, 5, 4], 1⟩]
    (√3) (2 / 3 * √3) (1 / 3 * √3) ![1, 0, 0] ![0, 1, 0] ![0, 0, 1] := by
  have h3 : √3 ^ 2 = 3 := Real.sq_sqrt (by norm_num)
  have hp : 0 < √3 := Real.sqrt_pos.2 (by norm_num)
  have hmean : weightedMean ([⟨![8, 5, 5], 1⟩, ⟨![2, 5, 5], 1⟩, ⟨![5, 7, 5], 1⟩, ⟨![5, 3, 5], 1⟩, ⟨![5, 5, 6], 1⟩,
      ⟨![5, 5, 4], 1⟩] : List (Particle ℝ)) = ![5, 5, 5] := by
    funext i
    fin_cases i <;> simp [weightedMean, totalMass] <;> norm_num
  refine ⟨?_, ?_⟩
  · rw [hmean]
    refine ⟨by positivity, by linarith, by linarith, ?_, ?_, ?_, ?_⟩
    · simp [Shapes.Orthonormal, dot]
    · intro i
      fin_cases i <;> simp [spreadAbout] <;> norm_num
    · intro i
      rw [mul_pow, h3]
      fin_cases i <;> simp [spreadAbout] <;> norm_num
    · intro i
      rw [mul_pow, h3]
      fin_cases i <;> simp [spreadAbout] <;> norm_num
  · rw [hmean]
    have hr : 1 / 3 * √3 / √3 * 100 = 100 / 3 := by field_simp
    rw [hr]
    intro p hp
    simp only [List.mem_cons, List.not_mem_nil, or_false] at hp
    unfold Periodic.dist
    rw [Real.sqrt_lt' (by norm_num)]
    rcases hp with rfl | rfl | rfl | rfl | rfl | rfl <;> simp <;> norm_num

/-- Particles with equal second moments in all directions: the corners of an octahedron. -/
example : weightedMean ([⟨![1, 0, 0], 1⟩, ⟨![-1, 0, 0], 1⟩, ⟨![0, 1, 0], 1⟩, ⟨![0, -1, 0], 1⟩, ⟨![0, 0, 1], 1⟩, ⟨![0, 0, -1], 1⟩] :
      List (Particle ℝ)) = 0 ∧
    ∀ i j, spreadAbout 0 ([⟨![1, 0, 0], 1⟩, ⟨![-1, 0, 0], 1⟩, ⟨![0, 1, 0], 1⟩, ⟨![0, -1, 0], 1⟩, ⟨![0, 0, 1], 1⟩, ⟨![0, 0, -1], 1⟩] :
      List (Particle ℝ)) i j = if i = j then 1 / 3 else 0 := by
  refine ⟨?_, ?_⟩
  · funext i
    fin_cases i <;> simp [weightedMean]
  · intro i j
    fin_cases i <;> fin_cases j <;> simp [spreadAbout] <;> norm_num

end Verif.Api
