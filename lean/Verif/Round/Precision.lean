import Verif.Shapes.Continuity

/-!
# Local shapes with more and more precise arithmetic (C182)

All four iterations (`runEllAlgo`, `runShellAlgo` and the variants for velocities, shape_profs_algos.pyx:16-514) with every operation rounded, for
the plain and the reduced tensor.
-/

namespace Verif.Round

open Verif.Shapes
open Verif (Vec Particle)
open Filter Topology

/-! ## Model -/

/-- Test of a particle before the first iteration, shape_profs_algos.pyx:82 (shells), 207 (ellipsoids). -/
noncomputable def firstTestIn (R : Rounding) (cfg : Config) (p : Pt) : Bool :=
  match cfg.deltaD with
  | none => firstTest R cfg p
  | some δ => firstTest R cfg p && decide (norm2 R (fun i => R.sub (cfg.center i) (p.x i)) ≥ R.pow (R.sub cfg.d δ) 2)

/-- `x**2/(d-delta_d)**2+y**2/(q_new*d-delta_d)**2+z**2/(s_new*d-delta_d)**2`, shape_profs_algos.pyx:139; `none` is a ZeroDivisionError. -/
noncomputable def innerNorm2 (R : Rounding) (d δ q s : ℝ) (y : Vec ℝ) : Option ℝ :=
  if R.pow (R.sub d δ) 2 = 0 then none else if R.pow (R.sub (R.mul q d) δ) 2 = 0 then none else if R.pow (R.sub (R.mul s d) δ) 2 = 0 then none else
    some (R.add (R.add (R.div (R.pow (y 0) 2) (R.pow (R.sub d δ) 2)) (R.div (R.pow (y 1) 2) (R.pow (R.sub (R.mul q d) δ) 2)))
      (R.div (R.pow (y 2) 2) (R.pow (R.sub (R.mul s d) δ) 2)))

/-- Test of a particle after an iteration, shape_profs_algos.pyx:130-143 (shells), 256 (ellipsoids): `and` is short-circuiting. -/
noncomputable def laterTestIn (R : Rounding) (cfg : Config) (q s : ℝ) (y : Vec ℝ) : Option Bool := do
  let r2 ← ellNorm2 R q s y
  if r2 < R.pow cfg.d 2 then
    match cfg.deltaD with
    | none => some true
    | some δ => if cfg.d = δ then some true else (innerNorm2 R cfg.d δ q s y).map fun x => decide (x ≥ 1)
  else some false

/-- One iteration, shape_profs_algos.pyx:95-144, 221-261. -/
noncomputable def volumeIterate (R S : Rounding) (cfg : Config) (st : PState) : Option PState := do
  let (qn, sn, err, major, inter, minor) ← newShape R S cfg st.sel st.q st.s
  let princ := cfg.pts.map fun p => ![along R cfg major p, along R cfg inter p, along R cfg minor p]
  let rs ← princ.mapM fun y => (ellNorm2 R qn sn y).map fun x => R.rnd √x
  let tests ← princ.mapM (laterTestIn R cfg qn sn)
  some { q := qn, s := sn, err := err, iteration := st.iteration + 1
         sel := select cfg.pts rs tests
         morph := ⟨cfg.d, qn, sn, major, inter, minor⟩ }

/-- One evaluation of the condition of the loop and its body, shape_profs_algos.pyx:88-144, 213-261. -/
noncomputable def volumeStep (R S : Rounding) (cfg : Config) (st : PState) : Next (Option Morph) PState :=
  if st.err > cfg.tol then
    if (st.iteration : Int) > cfg.wall then .stop (some .zero)
    else if (st.sel.length : Int) < cfg.itMin then .stop (some .zero)
    else match volumeIterate R S cfg st with
      | none => .stop none
      | some st' => .go st'
  else .stop (some st.morph)

/-- State before the loop, shape_profs_algos.pyx:66-87, 190-212. -/
noncomputable def volumeStart (R : Rounding) (cfg : Config) (morph : Morph) : PState :=
  { q := 1, s := 1, err := 1, iteration := 1
    sel := select cfg.pts
      (cfg.pts.map fun p => ((ellNorm2 R 1 1 fun i => R.sub (cfg.center i) (p.x i)).map fun x => R.rnd √x).getD 0)
      (cfg.pts.map (firstTestIn R cfg))
    morph := morph }

/-- `runShellAlgo`, `runEllAlgo` and the variants for velocities, shape_profs_algos.pyx:16-514, every operation rounded by `R`, the total mass by
`S`. Outer `none` = not finished after `fuel` evaluations of the condition of the loop, inner `none` = exception or NaN. -/
noncomputable def volumeRun (R S : Rounding) (fuel : Nat) (cfg : Config) (morph : Morph) : Option (Option Morph) :=
  loop (volumeStep R S cfg) fuel (volumeStart R cfg morph)

/-! ## Specification -/

/-- Arithmetic which becomes more and more precise: double precision `R`, single precision `S`, and the eigensolver. -/
structure MorePrecise {ι : Type} (F : Filter ι) (R S : ι → Rounding) (sols : ι → Solver) : Prop where
  double : Tendsto (fun i => (R i).u) F (𝓝 0)
  single : Tendsto (fun i => (S i).u) F (𝓝 0)
  solver : ∃ β : ι → ℝ, Tendsto β F (𝓝 0) ∧ ∀ i, BackwardStable (β i) (sols i)

/-! ## Proof -/

/-- For ellipsoids this is the iteration of C170 and C177. -/
theorem volumeRun_ellipsoid (R S : Rounding) (fuel : Nat) (cfg : Config) (morph : Morph) (h : cfg.deltaD = none) :
    volumeRun R S fuel cfg morph = roundedRun R S fuel cfg morph := by
  have h1 : firstTestIn R cfg = firstTest R cfg := by
    funext p
    unfold firstTestIn
    rw [h]
  have h2 : ∀ q s, laterTestIn R cfg q s = fun y => (ellNorm2 R q s y).map fun x => decide (x < R.pow cfg.d 2) := by
    intro q s
    funext y
    unfold laterTestIn
    rw [h]
    rcases ellNorm2 R q s y with _ | x
    · rfl
    · by_cases hx : x < R.pow cfg.d 2
      · simp [hx]
      · simp [hx]
  have h3 : volumeIterate R S cfg = roundedIterate R S cfg := by
    funext st
    unfold volumeIterate roundedIterate
    simp only [h2]
  have h4 : volumeStep R S cfg = roundedStep R S cfg := by
    funext st
    unfold volumeStep roundedStep
    rw [h3]
    rcases roundedIterate R S cfg st with _ | _ <;> rfl
  unfold volumeRun roundedRun volumeStart roundedStart
  rw [h4, h1]

section

variable {ι : Type} {F : Filter ι} {R S : ι → Rounding} {sols : ι → Solver}

theorem lim_rnd (hu : Tendsto (fun i => (R i).u) F (𝓝 0)) {x : ι → ℝ} {x₀ : ℝ} (hx : Tendsto x F (𝓝 x₀)) :
    Tendsto (fun i => (R i).rnd (x i)) F (𝓝 x₀) := by
  have h0 : Tendsto (fun i => (R i).u * |x i|) F (𝓝 0) := by simpa using hu.mul hx.abs
  have h1 : Tendsto (fun i => (R i).rnd (x i) - x i) F (𝓝 0) :=
    squeeze_zero_norm' (Eventually.of_forall fun i => by rw [Real.norm_eq_abs]; exact (R i).err (x i)) h0
  have h2 := h1.add hx
  rw [zero_add] at h2
  exact h2.congr fun i => sub_add_cancel _ _

section
variable (hu : Tendsto (fun i => (R i).u) F (𝓝 0)) {x y : ι → ℝ} {x₀ y₀ : ℝ} (hx : Tendsto x F (𝓝 x₀)) (hy : Tendsto y F (𝓝 y₀))
include hu hx

theorem lim_pow (n : Nat) : Tendsto (fun i => (R i).pow (x i) n) F (𝓝 (x₀ ^ n)) := lim_rnd hu (hx.pow n)

include hy

theorem lim_add : Tendsto (fun i => (R i).add (x i) (y i)) F (𝓝 (x₀ + y₀)) := lim_rnd hu (hx.add hy)

theorem lim_sub : Tendsto (fun i => (R i).sub (x i) (y i)) F (𝓝 (x₀ - y₀)) := lim_rnd hu (hx.sub hy)

theorem lim_mul : Tendsto (fun i => (R i).mul (x i) (y i)) F (𝓝 (x₀ * y₀)) := lim_rnd hu (hx.mul hy)

theorem lim_div (h0 : y₀ ≠ 0) : Tendsto (fun i => (R i).div (x i) (y i)) F (𝓝 (x₀ / y₀)) := lim_rnd hu (hx.div hy h0)

end

theorem lim_sum {α : Type} (hu : Tendsto (fun i => (R i).u) F (𝓝 0)) (l : List α) {t : ι → α → ℝ} {t₀ : α → ℝ}
    (ht : ∀ p ∈ l, Tendsto (fun i => t i p) F (𝓝 (t₀ p))) {a : ι → ℝ} {a₀ : ℝ} (ha : Tendsto a F (𝓝 a₀)) :
    Tendsto (fun i => (l.map (t i)).foldl (R i).add (a i)) F (𝓝 (a₀ + (l.map t₀).sum)) := by
  induction l generalizing a a₀ with
  | nil => simpa using ha
  | cons p l ih =>
    simp only [List.map_cons, List.foldl_cons, List.sum_cons]
    rw [← add_assoc]
    exact ih (fun q hq => ht q (List.mem_cons_of_mem _ hq)) (lim_add hu ha (ht p List.mem_cons_self))

theorem lim_total {α : Type} (hu : Tendsto (fun i => (R i).u) F (𝓝 0)) (hv : Tendsto (fun i => (S i).u) F (𝓝 0)) (l : List α) (m : α → ℝ)
    {a : ι → ℝ} {a₀ : ℝ} (ha : Tendsto a F (𝓝 a₀)) :
    Tendsto (fun i => (l.map m).foldl (fun a m => (S i).rnd ((R i).add a m)) (a i)) F (𝓝 (a₀ + (l.map m).sum)) := by
  induction l generalizing a a₀ with
  | nil => simpa using ha
  | cons p l ih =>
    simp only [List.map_cons, List.foldl_cons, List.sum_cons]
    rw [← add_assoc]
    exact ih (lim_rnd hv (lim_add hu ha tendsto_const_nhds))

/-- The tensor of selected particles. -/
theorem lim_tensor (hu : Tendsto (fun i => (R i).u) F (𝓝 0)) (hv : Tendsto (fun i => (S i).u) F (𝓝 0)) (cfg : Config) (l : List Pt)
    {r : ι → Pt → ℝ} {r₀ : Pt → ℝ} (hr : cfg.reduced = true → ∀ p ∈ l, Tendsto (fun i => r i p) F (𝓝 (√(r₀ p))) ∧ 0 < r₀ p)
    (hM : (l.map fun p => p.m).sum ≠ 0) (a b : Fin 3) :
    Tendsto (fun i => roundedTensor (R i) (S i) cfg.reduced cfg.srcCenter (entering (l.map fun p => (p, r i p))) a b) F
      (𝓝 (massTensor cfg (fun p => if cfg.reduced then r₀ p else 1) l a b)) := by
  have hmt : Tendsto (fun i => totalSingle (R i) (S i) ((entering (l.map fun p => (p, r i p))).map fun p => p.1.mass)) F
      (𝓝 ((l.map fun p => p.m).sum)) := by
    have := lim_total hu hv l (fun p => p.m) (a := fun _ => 0) (a₀ := 0) tendsto_const_nhds
    rw [zero_add] at this
    refine this.congr fun i => ?_
    unfold totalSingle entering
    rw [List.map_map, List.map_map]
    rfl
  have hent : ∀ a b, Tendsto (fun i => entry (R i) cfg.reduced (totalSingle (R i) (S i) ((entering (l.map fun p => (p, r i p))).map fun p => p.1.mass))
      cfg.srcCenter (entering (l.map fun p => (p, r i p))) a b) F (𝓝 (massTensor cfg (fun p => if cfg.reduced then r₀ p else 1) l a b)) := by
    intro a b
    set mt := fun i => totalSingle (R i) (S i) ((entering (l.map fun p => (p, r i p))).map fun p => p.1.mass) with hmtdef
    have := lim_sum hu l (t := fun i p => term (R i) cfg.reduced (mt i) cfg.srcCenter (⟨p.src, p.m⟩, r i p) a b)
      (t₀ := fun p => p.m * (p.src a - cfg.srcCenter a) * (p.src b - cfg.srcCenter b) /
        ((l.map fun p => p.m).sum * if cfg.reduced then r₀ p else 1)) (fun p hp => ?_) (a := fun _ => 0) (a₀ := 0) tendsto_const_nhds
    · rw [zero_add] at this
      have e : massTensor cfg (fun p => if cfg.reduced then r₀ p else 1) l a b = (l.map fun p => p.m * (p.src a - cfg.srcCenter a) *
          (p.src b - cfg.srcCenter b) / ((l.map fun p => p.m).sum * if cfg.reduced then r₀ p else 1)).sum := by
        unfold massTensor
        rw [div_eq_mul_inv, ← List.sum_map_mul_right]
        congr 1
        apply List.map_congr_left
        intro p _
        rw [mul_comm ((l.map fun p => p.m).sum), ← div_div]
        simp only [div_eq_mul_inv]
      rw [e]
      refine this.congr fun i => ?_
      unfold entry entering
      rw [List.map_map, List.map_map]
      rfl
    · have hc : ∀ k, Tendsto (fun i => (R i).sub (p.src k) (cfg.srcCenter k)) F (𝓝 (p.src k - cfg.srcCenter k)) := fun k =>
        lim_sub hu tendsto_const_nhds tendsto_const_nhds
      have hnum := lim_mul hu (lim_mul hu (tendsto_const_nhds (x := p.m)) (hc a)) (hc b)
      rcases hred : cfg.reduced with _ | _
      · simp only [term, Bool.false_eq_true, if_false, mul_one]
        exact lim_div hu hnum hmt hM
      · obtain ⟨h1, h2⟩ := hr hred p hp
        simp only [term, if_true]
        have hsq := lim_pow hu h1 2
        rw [Real.sq_sqrt h2.le] at hsq
        exact lim_div hu hnum (lim_mul hu hmt hsq) (mul_ne_zero hM h2.ne')
  have hsymm : massTensor cfg (fun p => if cfg.reduced then r₀ p else 1) l a b = massTensor cfg (fun p => if cfg.reduced then r₀ p else 1) l b a := by
    unfold massTensor
    congr 2
    apply List.map_congr_left
    intro p _
    ring
  have hba := hent b a
  rw [← hsymm] at hba
  have hab := hent a b
  unfold roundedTensor
  fin_cases a <;> fin_cases b <;> first | exact hab | exact hba

theorem roundedTensor_symm (R S : Rounding) (reduced : Bool) (c : Vec ℝ) (ps : List (Particle ℝ × ℝ)) (i j : Fin 3) :
    roundedTensor R S reduced c ps i j = roundedTensor R S reduced c ps j i := by
  unfold roundedTensor
  fin_cases i <;> fin_cases j <;> rfl

/-- What the solver returns for tensors which approach `T`. -/
theorem lim_values (hP : MorePrecise F R S sols) {T : Tensor} {Ts : ι → Tensor} (h : ∀ i j, Tendsto (fun l => Ts l i j) F (𝓝 (T i j)))
    (hsym : ∀ l i j, Ts l i j = Ts l j i) {a b c : ℝ} {x y z : Vec ℝ} (hp : Principal T a b c x y z) :
    ∃ Ts' : ι → Tensor, (∀ l, IsEigen (Ts' l) (sols l (Ts l))) ∧ (∀ v, Tendsto (fun l => form (Ts' l) v) F (𝓝 (form T v))) ∧
      Tendsto (fun l => (sols l (Ts l)).val 2) F (𝓝 (a ^ 2)) ∧ Tendsto (fun l => (sols l (Ts l)).val 1) F (𝓝 (b ^ 2)) ∧
      Tendsto (fun l => (sols l (Ts l)).val 0) F (𝓝 (c ^ 2)) := by
  obtain ⟨β, hβ, hst⟩ := hP.solver
  choose Ts' he hclose using fun l => hst l (Ts l) (hsym l)
  have hdist := Shapes.distance_tendsto h
  have hdiff : ∀ l v, |form (Ts l) v - form T v| ≤ (∑ i, ∑ j, |Ts l i j - T i j|) * dot v v := fun l v => Shapes.form_diff T (Ts l) v
  set E : ι → ℝ := fun l => ∑ i, ∑ j, |Ts l i j - T i j| with hE
  set N : ι → ℝ := fun l => ∑ i, ∑ j, |Ts l i j| with hN
  have hNlim : Tendsto N F (𝓝 (∑ i, ∑ j, |T i j|)) := tendsto_finsetSum _ fun i _ => tendsto_finsetSum _ fun j _ => (h i j).abs
  have hbound : ∀ l v, |form (Ts l) v| ≤ N l * dot v v := by
    intro l v
    have := Shapes.form_diff (fun _ _ => 0) (Ts l) v
    simp only [sub_zero] at this
    have z : form (fun _ _ => 0) v = 0 := by unfold form dot; ring
    rwa [z, sub_zero] at this
  have htot : ∀ l v, |form (Ts' l) v - form T v| ≤ (β l * N l + E l) * dot v v := by
    intro l v
    have h1 := hclose l (N l) (hbound l) v
    have h2 := hdiff l v
    have h3 := abs_add_le (form (Ts' l) v - form (Ts l) v) (form (Ts l) v - form T v)
    rw [sub_add_sub_cancel] at h3
    rw [add_mul]
    linarith
  have hlim : Tendsto (fun l => β l * N l + E l) F (𝓝 0) := by
    have := (hβ.mul hNlim).add hdist
    simpa using this
  have near : ∀ (u : ι → ℝ) (v K : ℝ), (∀ l, |u l - v| ≤ K * (β l * N l + E l)) → Tendsto u F (𝓝 v) := by
    intro u v K hu
    have h0 : Tendsto (fun l => K * (β l * N l + E l)) F (𝓝 0) := by simpa using hlim.const_mul K
    have h1 : Tendsto (fun l => u l - v) F (𝓝 0) :=
      squeeze_zero_norm' (Eventually.of_forall fun l => by rw [Real.norm_eq_abs]; exact hu l) h0
    have h2 := h1.add_const v
    rw [zero_add] at h2
    exact h2.congr fun l => sub_add_cancel _ _
  have hval := fun l => eigenvalues_near (principal_eigen hp) (he l) (htot l)
  refine ⟨Ts', he, fun v => near _ _ (dot v v) fun l => ?_, near _ _ 1 fun l => ?_, near _ _ 5 fun l => (hval l).2.1, near _ _ 1 fun l => ?_⟩
  · rw [mul_comm]; exact htot l v
  · rw [one_mul]; exact (hval l).2.2
  · rw [one_mul]; exact (hval l).1

/-- Directions which diagonalise the form of a symmetric tensor are eigenvectors. -/
theorem principal_of_form {T : Tensor} (hsymT : ∀ i j, T i j = T j i) {a b c : ℝ} (hc : 0 < c) (hcb : c ≤ b) (hba : b ≤ a) {x y z : Vec ℝ}
    (ho : Orthonormal x y z) (h : ∀ v, form T v = c ^ 2 * dot z v ^ 2 + b ^ 2 * dot y v ^ 2 + a ^ 2 * dot x v ^ 2) : Principal T a b c x y z := by
  have pol : ∀ (i : Fin 3) (v : Vec ℝ), T i 0 * v 0 + T i 1 * v 1 + T i 2 * v 2 =
      c ^ 2 * z i * dot z v + b ^ 2 * y i * dot y v + a ^ 2 * x i * dot x v := by
    intro i v
    have h1 := h fun j => v j + if j = i then 1 else 0
    have h2 := h v
    have h3 := h fun j => if j = i then 1 else 0
    have e01 := hsymT 0 1
    have e02 := hsymT 0 2
    have e12 := hsymT 1 2
    unfold form dot at h1 h2 h3
    unfold dot
    fin_cases i
    · simp only [Fin.zero_eta, if_true, Fin.isValue, one_ne_zero, if_false, show ((2 : Fin 3) = 0) = False by decide] at h1 h3 ⊢
      linear_combination (h1 - h2 - h3) / 2 + v 1 / 2 * e01 + v 2 / 2 * e02
    · simp only [Fin.mk_one, if_true, Fin.isValue, zero_ne_one, if_false, show ((2 : Fin 3) = 1) = False by decide] at h1 h3 ⊢
      linear_combination (h1 - h2 - h3) / 2 - v 0 / 2 * e01 + v 2 / 2 * e12
    · simp only [Fin.reduceFinMk, if_true, Fin.isValue, show ((0 : Fin 3) = 2) = False by decide, if_false, show ((1 : Fin 3) = 2) = False by decide] at h1 h3 ⊢
      linear_combination (h1 - h2 - h3) / 2 - v 0 / 2 * e02 - v 1 / 2 * e12
  obtain ⟨n1, n2, n3, o1, o2, o3⟩ := ho
  have comm : ∀ u v : Vec ℝ, dot u v = dot v u := fun u v => by unfold dot; ring
  refine ⟨hc, hcb, hba, ⟨n1, n2, n3, o1, o2, o3⟩, fun i => ?_, fun i => ?_, fun i => ?_⟩
  · rw [pol, comm z x, comm y x, n1, o1, o2]; ring
  · rw [pol, comm z y, n2, o1, o3]; ring
  · rw [pol, n3, o2, o3]; ring

/-- Along ultrafilters the computed axes approach principal axes. -/
theorem frame_limit (hP : MorePrecise F R S sols) {T : Tensor} (hsymT : ∀ i j, T i j = T j i) {Ts : ι → Tensor}
    (h : ∀ i j, Tendsto (fun l => Ts l i j) F (𝓝 (T i j))) (hsym : ∀ l i j, Ts l i j = Ts l j i)
    {a b c : ℝ} {x y z : Vec ℝ} (hp : Principal T a b c x y z) {A : ι → Fin 3 → Vec ℝ}
    (hA : ∀ l k j, Rel (R l) 5 (A l k j) ((sols l (Ts l)).vec k j / √(dot ((sols l (Ts l)).vec k) ((sols l (Ts l)).vec k))))
    (g : Ultrafilter ι) (hg : (g : Filter ι) ≤ F) :
    ∃ X Y Z, Principal T a b c X Y Z ∧ (∀ j, Tendsto (fun l => A l 2 j) g (𝓝 (X j))) ∧ (∀ j, Tendsto (fun l => A l 1 j) g (𝓝 (Y j))) ∧
      ∀ j, Tendsto (fun l => A l 0 j) g (𝓝 (Z j)) := by
  obtain ⟨Ts', he, hform, va, vb, vc⟩ := lim_values hP h hsym hp
  set n : ι → Fin 3 → Vec ℝ := fun l => unit (sols l (Ts l)).vec with hn
  have hframe : ∀ l, Frame3 (n l) := fun l => unit_frame (he l).orth (he l).nonzero
  have hone : ∀ l k, dot (n l k) (n l k) = 1 := fun l k => by
    have := hframe l k k
    rwa [if_pos rfl] at this
  have hcomp : IsCompact (Metric.closedBall (0 : Vec ℝ) 1 ×ˢ (Metric.closedBall (0 : Vec ℝ) 1 ×ˢ Metric.closedBall (0 : Vec ℝ) 1)) :=
    (isCompact_closedBall _ _).prod ((isCompact_closedBall _ _).prod (isCompact_closedBall _ _))
  obtain ⟨⟨X, Y, Z⟩, -, hlim⟩ := hcomp.ultrafilter_le_nhds' (g.map fun l => (n l 2, n l 1, n l 0))
    (Eventually.of_forall (f := (g : Filter ι)) fun l =>
      ⟨Shapes.unit_bound (hone l 2), Shapes.unit_bound (hone l 1), Shapes.unit_bound (hone l 0)⟩)
  have hlim' : Tendsto (fun l => (n l 2, n l 1, n l 0)) g (𝓝 (X, Y, Z)) := hlim
  have cx : ∀ j, Tendsto (fun l => n l 2 j) g (𝓝 (X j)) := fun j => (((continuous_apply j).comp continuous_fst).tendsto _).comp hlim'
  have cy : ∀ j, Tendsto (fun l => n l 1 j) g (𝓝 (Y j)) :=
    fun j => (((continuous_apply j).comp (continuous_fst.comp continuous_snd)).tendsto _).comp hlim'
  have cz : ∀ j, Tendsto (fun l => n l 0 j) g (𝓝 (Z j)) :=
    fun j => (((continuous_apply j).comp (continuous_snd.comp continuous_snd)).tendsto _).comp hlim'
  have hdot : ∀ {u v : ι → Vec ℝ} {U V : Vec ℝ}, (∀ j, Tendsto (fun l => u l j) g (𝓝 (U j))) → (∀ j, Tendsto (fun l => v l j) g (𝓝 (V j))) →
      Tendsto (fun l => dot (u l) (v l)) g (𝓝 (dot U V)) := by
    intro u v U V hu hv
    unfold dot
    exact (((hu 0).mul (hv 0)).add ((hu 1).mul (hv 1))).add ((hu 2).mul (hv 2))
  have ort : ∀ {u v : ι → Vec ℝ} {U V : Vec ℝ} {k : ℝ}, (∀ j, Tendsto (fun l => u l j) g (𝓝 (U j))) →
      (∀ j, Tendsto (fun l => v l j) g (𝓝 (V j))) → (∀ l, dot (u l) (v l) = k) → dot U V = k := by
    intro u v U V k hu hv he
    refine tendsto_nhds_unique (hdot hu hv) ?_
    simp only [he]
    exact tendsto_const_nhds
  have off : ∀ k k', k ≠ k' → ∀ l, dot (n l k) (n l k') = 0 := fun k k' hk l => by
    have := hframe l k k'
    rwa [if_neg hk] at this
  have ho : Orthonormal X Y Z := ⟨ort cx cx fun l => hone l 2, ort cy cy fun l => hone l 1, ort cz cz fun l => hone l 0,
    ort cx cy (off 2 1 (by decide)), ort cx cz (off 2 0 (by decide)), ort cy cz (off 1 0 (by decide))⟩
  have hP' : Principal T a b c X Y Z := by
    refine principal_of_form hsymT hp.pos hp.cb hp.ba ho fun v => ?_
    have hv : ∀ j, Tendsto (fun _ : ι => v j) (g : Filter ι) (𝓝 (v j)) := fun j => tendsto_const_nhds
    refine tendsto_nhds_unique ((hform v).mono_left hg) ?_
    have := (((vc.mono_left hg).mul ((hdot cz hv).pow 2)).add ((vb.mono_left hg).mul ((hdot cy hv).pow 2))).add
      ((va.mono_left hg).mul ((hdot cx hv).pow 2))
    exact this.congr fun l => (form_eq (he l) v).symm
  have hu := hP.double.mono_left hg
  have axis : ∀ (k : Fin 3) (U : Vec ℝ), (∀ j, Tendsto (fun l => n l k j) g (𝓝 (U j))) → ∀ j, Tendsto (fun l => A l k j) g (𝓝 (U j)) := by
    intro k U hU j
    have h0 : Tendsto (fun l => 2 * (5 : ℕ) * (R l).u * |n l k j|) g (𝓝 0) := by
      have := (hu.const_mul (2 * (5 : ℕ) : ℝ)).mul (hU j).abs
      simpa using this
    have small : ∀ᶠ l in (g : Filter ι), ((5 : ℕ) : ℝ) * (R l).u ≤ 1 / 2 := by
      have := hu.const_mul ((5 : ℕ) : ℝ)
      rw [mul_zero] at this
      filter_upwards [this.eventually_lt_const (show (0 : ℝ) < 1 / 2 by norm_num)] with l hl using hl.le
    have h1 : Tendsto (fun l => A l k j - n l k j) g (𝓝 0) := by
      refine squeeze_zero_norm' ?_ h0
      filter_upwards [small] with l hl
      have hr := hA l k j
      rw [div_eq_inv_mul] at hr
      rw [Real.norm_eq_abs]
      exact hr.err' hl
    have h2 := h1.add (hU j)
    rw [zero_add] at h2
    exact h2.congr fun l => sub_add_cancel _ _
  exact ⟨X, Y, Z, hP', axis 2 X cx, axis 1 Y cy, axis 0 Z cz⟩

/-- Axes which approach those of `e` as far as these are determined. -/
def AxesNear (F : Filter ι) (M I N : ι → Vec ℝ) (e : Ellipsoid) : Prop :=
  ∀ g : Ultrafilter ι, (g : Filter ι) ≤ F → ∃ e' : Ellipsoid, SameForms e' e ∧ (∀ j, Tendsto (fun l => M l j) g (𝓝 (e'.major j))) ∧
    (∀ j, Tendsto (fun l => I l j) g (𝓝 (e'.inter j))) ∧ ∀ j, Tendsto (fun l => N l j) g (𝓝 (e'.minor j))

/-- The computed squared ellipsoidal radius of a particle. -/
noncomputable def outVal (R : Rounding) (cfg : Config) (q s : ℝ) (M I N : Vec ℝ) (p : Pt) : ℝ :=
  R.add (R.add (R.pow (along R cfg M p) 2) (R.div (R.pow (along R cfg I p) 2) (R.pow q 2))) (R.div (R.pow (along R cfg N p) 2) (R.pow s 2))

/-- The same with respect to the inner boundary. -/
noncomputable def innVal (R : Rounding) (cfg : Config) (δ q s : ℝ) (M I N : Vec ℝ) (p : Pt) : ℝ :=
  R.add (R.add (R.div (R.pow (along R cfg M p) 2) (R.pow (R.sub cfg.d δ) 2))
    (R.div (R.pow (along R cfg I p) 2) (R.pow (R.sub (R.mul q cfg.d) δ) 2)))
    (R.div (R.pow (along R cfg N p) 2) (R.pow (R.sub (R.mul s cfg.d) δ) 2))

/-- The computed test. -/
noncomputable def testVal (R : Rounding) (cfg : Config) (q s : ℝ) (M I N : Vec ℝ) (p : Pt) : Bool :=
  decide (outVal R cfg q s M I N p < R.pow cfg.d 2) &&
    match cfg.deltaD with
    | none => true
    | some δ => decide (cfg.d = δ) || decide (innVal R cfg δ q s M I N p ≥ 1)

theorem lim_along (hu : Tendsto (fun i => (R i).u) F (𝓝 0)) (cfg : Config) {M : ι → Vec ℝ} {m : Vec ℝ} (hM : ∀ j, Tendsto (fun l => M l j) F (𝓝 (m j)))
    (p : Pt) : Tendsto (fun l => along (R l) cfg (M l) p) F (𝓝 (dot m (rel cfg p))) := by
  unfold along
  have h : ∀ j, Tendsto (fun l => (R l).mul (M l j) ((R l).sub (p.x j) (cfg.center j))) F (𝓝 (m j * (p.x j - cfg.center j))) := fun j =>
    lim_mul hu (hM j) (lim_sub hu tendsto_const_nhds tendsto_const_nhds)
  exact lim_add hu (lim_add hu (h 0) (h 1)) (h 2)

theorem lim_out (hu : Tendsto (fun i => (R i).u) F (𝓝 0)) (cfg : Config) {M I N : ι → Vec ℝ} {e : Ellipsoid} (hax : AxesNear F M I N e)
    {q s : ι → ℝ} (hq : Tendsto q F (𝓝 e.q)) (hs : Tendsto s F (𝓝 e.s)) (q0 : e.q ≠ 0) (s0 : e.s ≠ 0) (p : Pt) :
    Tendsto (fun l => outVal (R l) cfg (q l) (s l) (M l) (I l) (N l) p) F (𝓝 (ellipsoidal2 e.major e.inter e.minor e.q e.s (rel cfg p))) := by
  rw [tendsto_iff_ultrafilter]
  intro g hg
  obtain ⟨e', hsf, hM, hI, hN⟩ := hax g hg
  have hu' := hu.mono_left hg
  have hq' := hq.mono_left hg
  have hs' := hs.mono_left hg
  rw [← hsf.surf, ellipsoidal2, hsf.q, hsf.s]
  exact lim_add hu' (lim_add hu' (lim_pow hu' (lim_along hu' cfg hM p) 2)
    (lim_div hu' (lim_pow hu' (lim_along hu' cfg hI p) 2) (lim_pow hu' hq' 2) (pow_ne_zero 2 q0)))
    (lim_div hu' (lim_pow hu' (lim_along hu' cfg hN p) 2) (lim_pow hu' hs' 2) (pow_ne_zero 2 s0))

theorem lim_inn (hu : Tendsto (fun i => (R i).u) F (𝓝 0)) (cfg : Config) {M I N : ι → Vec ℝ} {e : Ellipsoid} (hax : AxesNear F M I N e)
    {q s : ι → ℝ} (hq : Tendsto q F (𝓝 e.q)) (hs : Tendsto s F (𝓝 e.s)) {δ : ℝ} (hd : cfg.d ≠ δ) (q0 : e.q * cfg.d ≠ δ) (s0 : e.s * cfg.d ≠ δ)
    (p : Pt) : Tendsto (fun l => innVal (R l) cfg δ (q l) (s l) (M l) (I l) (N l) p) F (𝓝 (inner2 cfg.d δ e (rel cfg p))) := by
  rw [tendsto_iff_ultrafilter]
  intro g hg
  obtain ⟨e', hsf, hM, hI, hN⟩ := hax g hg
  have hu' := hu.mono_left hg
  have hq' := hq.mono_left hg
  have hs' := hs.mono_left hg
  rw [← hsf.inner, inner2, hsf.q, hsf.s]
  have hden : ∀ {x : ι → ℝ} {x₀ : ℝ}, Tendsto x g (𝓝 x₀) → Tendsto (fun l => (R l).pow ((R l).sub ((R l).mul (x l) cfg.d) δ) 2) g
      (𝓝 ((x₀ * cfg.d - δ) ^ 2)) := fun hx => lim_pow hu' (lim_sub hu' (lim_mul hu' hx tendsto_const_nhds) tendsto_const_nhds) 2
  exact lim_add hu' (lim_add hu' (lim_div hu' (lim_pow hu' (lim_along hu' cfg hM p) 2)
    (lim_pow hu' (lim_sub hu' tendsto_const_nhds tendsto_const_nhds) 2) (pow_ne_zero 2 (sub_ne_zero.2 hd)))
    (lim_div hu' (lim_pow hu' (lim_along hu' cfg hI p) 2) (hden hq') (pow_ne_zero 2 (sub_ne_zero.2 q0))))
    (lim_div hu' (lim_pow hu' (lim_along hu' cfg hN p) 2) (hden hs') (pow_ne_zero 2 (sub_ne_zero.2 s0)))

/-- The computed tests raise no exception. -/
theorem tests_some (hu : Tendsto (fun i => (R i).u) F (𝓝 0)) (cfg : Config) {e : Ellipsoid} {q s : ι → ℝ} (hq : Tendsto q F (𝓝 e.q))
    (hs : Tendsto s F (𝓝 e.s)) (q0 : e.q ≠ 0) (s0 : e.s ≠ 0) (hin : InnerAxes cfg e) (M I N : ι → Vec ℝ) :
    ∀ᶠ l in F, (∀ p, ellNorm2 (R l) (q l) (s l) ![along (R l) cfg (M l) p, along (R l) cfg (I l) p, along (R l) cfg (N l) p] =
        some (outVal (R l) cfg (q l) (s l) (M l) (I l) (N l) p)) ∧
      ∀ p, laterTestIn (R l) cfg (q l) (s l) ![along (R l) cfg (M l) p, along (R l) cfg (I l) p, along (R l) cfg (N l) p] =
        some (testVal (R l) cfg (q l) (s l) (M l) (I l) (N l) p) := by
  have e1 := (lim_pow hu hq 2).eventually_ne (pow_ne_zero 2 q0)
  have e2 := (lim_pow hu hs 2).eventually_ne (pow_ne_zero 2 s0)
  have e3 : ∀ᶠ l in F, ∀ δ, cfg.deltaD = some δ → cfg.d ≠ δ → (R l).pow ((R l).sub cfg.d δ) 2 ≠ 0 ∧
      (R l).pow ((R l).sub ((R l).mul (q l) cfg.d) δ) 2 ≠ 0 ∧ (R l).pow ((R l).sub ((R l).mul (s l) cfg.d) δ) 2 ≠ 0 := by
    rcases hδ : cfg.deltaD with _ | δ
    · exact Eventually.of_forall fun l δ h => by cases h
    · by_cases hd : cfg.d = δ
      · exact Eventually.of_forall fun l δ' h hne => absurd (hd.trans (Option.some.inj h)) hne
      · obtain ⟨g1, g2⟩ := hin δ hδ hd
        have d1 := (lim_pow hu (lim_sub hu (tendsto_const_nhds (x := cfg.d)) (tendsto_const_nhds (x := δ))) 2).eventually_ne
          (pow_ne_zero 2 (sub_ne_zero.2 hd))
        have d2 := (lim_pow hu (lim_sub hu (lim_mul hu hq (tendsto_const_nhds (x := cfg.d))) (tendsto_const_nhds (x := δ))) 2).eventually_ne
          (pow_ne_zero 2 (sub_ne_zero.2 g1))
        have d3 := (lim_pow hu (lim_sub hu (lim_mul hu hs (tendsto_const_nhds (x := cfg.d))) (tendsto_const_nhds (x := δ))) 2).eventually_ne
          (pow_ne_zero 2 (sub_ne_zero.2 g2))
        filter_upwards [d1, d2, d3] with l h1 h2 h3 δ' hδ' _
        obtain rfl := Option.some.inj hδ'
        exact ⟨h1, h2, h3⟩
  filter_upwards [e1, e2, e3] with l h1 h2 h3
  have hell : ∀ p, ellNorm2 (R l) (q l) (s l) ![along (R l) cfg (M l) p, along (R l) cfg (I l) p, along (R l) cfg (N l) p] =
      some (outVal (R l) cfg (q l) (s l) (M l) (I l) (N l) p) := by
    intro p
    unfold ellNorm2
    rw [if_neg h1, if_neg h2]
    rfl
  refine ⟨hell, fun p => ?_⟩
  unfold laterTestIn testVal
  rw [hell]
  show (if _ then _ else _) = _
  by_cases hlt : outVal (R l) cfg (q l) (s l) (M l) (I l) (N l) p < (R l).pow cfg.d 2
  · rw [if_pos hlt, decide_eq_true hlt, Bool.true_and]
    rcases hδ : cfg.deltaD with _ | δ
    · rfl
    · by_cases hd : cfg.d = δ
      · simp only [hd, if_true, decide_true, Bool.true_or]
      · obtain ⟨g1, g2, g3⟩ := h3 δ hδ hd
        simp only [if_neg hd, decide_eq_false hd, Bool.false_or]
        unfold innerNorm2
        rw [if_neg g1, if_neg g2, if_neg g3]
        rfl
  · rw [if_neg hlt, decide_eq_false hlt, Bool.false_and]

/-- Eventually the tests tell who is inside. -/
theorem tests_right (hu : Tendsto (fun i => (R i).u) F (𝓝 0)) {cfg : Config} (hgen : Generic cfg) {n : Nat} {e : Ellipsoid} (hr : Reached cfg n e)
    (hn : (n : Int) < cfg.wall) (hpos : 0 < e.q ∧ 0 < e.s) {M I N : ι → Vec ℝ} (hax : AxesNear F M I N e)
    {q s : ι → ℝ} (hq : Tendsto q F (𝓝 e.q)) (hs : Tendsto s F (𝓝 e.s)) :
    ∀ᶠ l in F, ∀ p ∈ cfg.pts, (testVal (R l) cfg (q l) (s l) (M l) (I l) (N l) p = true ↔ Inside cfg e.major e.inter e.minor e.q e.s p) := by
  have hfin : {p | p ∈ cfg.pts}.Finite := List.finite_toSet _
  refine (Filter.eventually_all_finite hfin).2 fun p hp => ?_
  have hout := lim_out hu cfg hax hq hs hpos.1.ne' hpos.2.ne' p
  have hd := lim_pow hu (tendsto_const_nhds (x := cfg.d)) 2
  have outer : ∀ᶠ l in F, (outVal (R l) cfg (q l) (s l) (M l) (I l) (N l) p < (R l).pow cfg.d 2 ↔
      ellipsoidal2 e.major e.inter e.minor e.q e.s (rel cfg p) < cfg.d ^ 2) := by
    rcases lt_or_gt_of_ne (hgen.surface n e hr hn p hp) with hlt | hgt
    · filter_upwards [hout.eventually_lt hd hlt] with i hi
      exact iff_of_true hi hlt
    · filter_upwards [hd.eventually_lt hout hgt] with i hi
      exact iff_of_false (not_lt.2 hi.le) (not_lt.2 hgt.le)
  rcases hδ : cfg.deltaD with _ | δ
  · filter_upwards [outer] with l hl
    unfold testVal
    rw [hδ, inside_iff, ← hl]
    simp [hδ]
  · by_cases hdd : cfg.d = δ
    · filter_upwards [outer] with l hl
      unfold testVal
      rw [hδ, inside_iff, ← hl]
      simp [hδ, hdd]
    · obtain ⟨g1, g2⟩ := InnerAxes.reached hgen hr hn.le δ hδ hdd
      have hinn := lim_inn hu cfg hax hq hs hdd g1 g2 p
      have inner : ∀ᶠ l in F, (innVal (R l) cfg δ (q l) (s l) (M l) (I l) (N l) p ≥ 1 ↔ 1 ≤ inner2 cfg.d δ e (rel cfg p)) := by
        rcases lt_or_gt_of_ne (hgen.inner n e hr hn δ hδ hdd p hp) with hlt | hgt
        · filter_upwards [hinn.eventually_lt_const hlt] with i hi
          exact iff_of_false (not_le.2 hi) (not_le.2 hlt)
        · filter_upwards [hinn.eventually_const_lt hgt] with i hi
          exact iff_of_true hi.le hgt.le
      filter_upwards [outer, inner] with l hl hl'
      unfold testVal
      rw [hδ, inside_iff, ← hl]
      simp only [hδ, Option.some.injEq, forall_eq', Bool.and_eq_true, decide_eq_true_eq, Bool.or_eq_true, hl']
      constructor
      · rintro ⟨h1, h2⟩
        exact ⟨h1, fun hne => h2.resolve_left hne⟩
      · rintro ⟨h1, h2⟩
        exact ⟨h1, .inr (h2 hdd)⟩

theorem select_fun (pts : List Pt) (r : Pt → ℝ) (g : Pt → Bool) : select pts (pts.map r) (pts.map g) = (pts.filter g).map fun p => (p, r p) := by
  unfold select
  induction pts with
  | nil => rfl
  | cons p pts ih =>
    simp only [List.map_cons, List.zip_cons_cons, List.filterMap_cons, List.filter_cons]
    cases g p
    · simpa using ih
    · simpa using ih

theorem mapM_map_some {α β γ : Type} (y : α → β) (f : β → Option γ) (g : α → γ) (l : List α) (h : ∀ x, f (y x) = some (g x)) :
    (l.map y).mapM f = some (l.map g) := by
  induction l with
  | nil => rfl
  | cons x l ih =>
    rw [List.map_cons, List.mapM_cons, h x, ih]
    rfl

/-- The computed states are in step with the exact iteration. -/
structure InStep (F : Filter ι) (cfg : Config) (n : Nat) (e : Ellipsoid) (sts : ι → PState) : Prop where
  q : Tendsto (fun i => (sts i).q) F (𝓝 e.q)
  s : Tendsto (fun i => (sts i).s) F (𝓝 e.s)
  iteration : ∀ i, (sts i).iteration = n + 1
  err : ∀ᶠ i in F, (sts i).err > cfg.tol
  sel : (n : Int) < cfg.wall → ∃ r : ι → Pt → ℝ, (∀ p ∈ cfg.pts, Tendsto (fun i => r i p) F
      (𝓝 √(ellipsoidal2 e.major e.inter e.minor e.q e.s (rel cfg p)))) ∧ ∀ᶠ i in F, (sts i).sel = (members cfg e).map fun p => (p, r i p)

theorem axes_pos {cfg : Config} {e e' : Ellipsoid} (h : PrincipalAxes cfg e e') : 0 < e'.q ∧ 0 < e'.s := by
  obtain ⟨a, b, c, hp, hq, hs⟩ := h.principal
  have hc := hp.pos
  have hb : 0 < b := hc.trans_le hp.cb
  have ha : 0 < a := hb.trans_le hp.ba
  rw [hq, hs]
  exact ⟨div_pos hb ha, div_pos hc ha⟩

theorem ratios_pos {cfg : Config} {n : Nat} {e : Ellipsoid} (h : Reached cfg n e) : 0 < e.q ∧ 0 < e.s := by
  cases h with
  | sphere => exact ⟨one_pos, one_pos⟩
  | step _ _ hax _ => exact axes_pos hax

/-- Axis ratios, their changes and axes. -/
theorem shape_near (hP : MorePrecise F R S sols) {cfg : Config} (hcen : cfg.reduced = true → ∀ p ∈ cfg.pts, rel cfg p ≠ 0) {n : Nat} {e e' : Ellipsoid}
    (hr : Reached cfg n e) (hax : PrincipalAxes cfg e e') {sts : ι → PState} (hq : Tendsto (fun i => (sts i).q) F (𝓝 e.q))
    (hs : Tendsto (fun i => (sts i).s) F (𝓝 e.s)) {r : ι → Pt → ℝ}
    (hrad : ∀ p ∈ cfg.pts, Tendsto (fun i => r i p) F (𝓝 √(ellipsoidal2 e.major e.inter e.minor e.q e.s (rel cfg p))))
    (hsel : ∀ᶠ i in F, (sts i).sel = (members cfg e).map fun p => (p, r i p)) :
    ∃ (q s err : ι → ℝ) (M I N : ι → Vec ℝ), Tendsto q F (𝓝 e'.q) ∧ Tendsto s F (𝓝 e'.s) ∧
      Tendsto err F (𝓝 (max (|e'.q - e.q| / e.q) (|e'.s - e.s| / e.s))) ∧ AxesNear F M I N e' ∧
      ∀ᶠ i in F, newShape (R i) (S i) { cfg with solver := sols i } (sts i).sel (sts i).q (sts i).s = some (q i, s i, err i, M i, I i, N i) := by
  classical
  have hu := hP.double
  have hv := hP.single
  obtain ⟨a, b, c, hp, eq, es⟩ := hax.principal
  have hc0 := hp.pos
  have hb0 : 0 < b := hc0.trans_le hp.cb
  have ha0 : 0 < a := hb0.trans_le hp.ba
  have hmem : ∀ p ∈ members cfg e, p ∈ cfg.pts := fun p hpm => List.mem_of_mem_filter hpm
  set Ts : ι → Tensor := fun i => roundedTensor (R i) (S i) cfg.reduced cfg.srcCenter (entering ((members cfg e).map fun p => (p, r i p))) with hTs
  have ht : ∀ i j, Tendsto (fun l => Ts l i j) F (𝓝 (tensorOf cfg e i j)) := by
    intro i j
    refine lim_tensor hu hv cfg (members cfg e) (r₀ := fun p => ellipsoidal2 e.major e.inter e.minor e.q e.s (rel cfg p)) (fun hred p hpm => ?_)
      (mass_ne_zero hax) i j
    refine ⟨hrad p (hmem p hpm), lt_of_le_of_ne ?_ (Ne.symm (radius_ne_zero hr (hcen hred p (hmem p hpm))))⟩
    unfold ellipsoidal2
    positivity
  have hsym : ∀ l i j, Ts l i j = Ts l j i := fun l i j => roundedTensor_symm _ _ _ _ _ i j
  obtain ⟨Ts', he, -, va, vb, vc⟩ := lim_values hP ht hsym hp
  choose A hA hrel using fun l k => unitised_rel (R l) ((he l).nonzero k)
  have hroot : ∀ {v : ι → ℝ} {x : ℝ}, 0 < x → Tendsto v F (𝓝 (x ^ 2)) →
      Tendsto (fun l => (R l).rnd √((R l).div (v l) ((sols l (Ts l)).val 2))) F (𝓝 (x / a)) ∧
      ∀ᶠ l in F, rootRatio (R l) (v l) ((sols l (Ts l)).val 2) = some ((R l).rnd √((R l).div (v l) ((sols l (Ts l)).val 2))) := by
    intro v x hx hvx
    constructor
    · have h1 := lim_div hu hvx va (by positivity)
      rw [← div_pow] at h1
      have h2 := (Real.continuous_sqrt.tendsto _).comp h1
      rw [Real.sqrt_sq (div_pos hx ha0).le] at h2
      exact lim_rnd hu h2
    · filter_upwards [hvx.eventually_const_lt (show (0 : ℝ) < x ^ 2 by positivity), va.eventually_const_lt (show (0 : ℝ) < a ^ 2 by positivity)]
        with l h1 h2
      unfold rootRatio
      rw [if_neg h2.ne', if_neg (show ¬ (R l).div (v l) ((sols l (Ts l)).val 2) < 0 from not_lt.2 (rnd_nonneg (R l) (div_pos h1 h2).le))]
  obtain ⟨lq, sq⟩ := hroot hb0 vb
  obtain ⟨ls, ss⟩ := hroot hc0 vc
  set q : ι → ℝ := fun l => (R l).rnd √((R l).div ((sols l (Ts l)).val 1) ((sols l (Ts l)).val 2)) with hqd
  set s : ι → ℝ := fun l => (R l).rnd √((R l).div ((sols l (Ts l)).val 0) ((sols l (Ts l)).val 2)) with hsd
  rw [← eq] at lq
  rw [← es] at ls
  obtain ⟨pq, ps⟩ := ratios_pos hr
  have hchange : ∀ {x y : ι → ℝ} {x₀ y₀ : ℝ}, Tendsto x F (𝓝 x₀) → Tendsto y F (𝓝 y₀) → 0 < y₀ →
      Tendsto (fun l => (R l).div |(S l).rnd ((R l).sub (x l) (y l))| (y l)) F (𝓝 (|x₀ - y₀| / y₀)) ∧
      ∀ᶠ l in F, change (R l) (S l) (x l) (y l) = some ((R l).div |(S l).rnd ((R l).sub (x l) (y l))| (y l)) := by
    intro x y x₀ y₀ hx hy h0
    constructor
    · exact lim_div hu (lim_rnd hv (lim_sub hu hx hy)).abs hy h0.ne'
    · filter_upwards [hy.eventually_ne h0.ne'] with l hl
      unfold change
      rw [if_neg hl]
  obtain ⟨cq, cq'⟩ := hchange lq hq pq
  obtain ⟨cs, cs'⟩ := hchange ls hs ps
  refine ⟨q, s, _, fun l => A l 2, fun l => A l 1, fun l => A l 0, lq, ls, cq.max cs, ?_, ?_⟩
  · intro g hg
    obtain ⟨X, Y, Z, hp', h1, h2, h3⟩ := frame_limit hP (tensorOf_symm e) ht hsym hp (A := A) hrel g hg
    refine ⟨⟨X, Y, Z, b / a, c / a⟩, ⟨eq.symm, es.symm, fun f v => ?_⟩, h1, h2, h3⟩
    rw [eq, es]
    exact hp'.forms (tensorOf_symm e) hp f v
  · filter_upwards [hsel, sq, ss, cq', cs'] with l h1 h2 h3 h4 h5
    unfold newShape
    rw [h1]
    show ((rootRatio (R l) ((sols l (Ts l)).val 1) ((sols l (Ts l)).val 2)).bind fun qn => (rootRatio (R l) ((sols l (Ts l)).val 0) ((sols l (Ts l)).val 2)).bind fun sn =>
      (change (R l) (S l) qn (sts l).q).bind fun eq => (change (R l) (S l) sn (sts l).s).bind fun es =>
      (unitised (R l) ((sols l (Ts l)).vec 2)).bind fun major => (unitised (R l) ((sols l (Ts l)).vec 1)).bind fun inter =>
      (unitised (R l) ((sols l (Ts l)).vec 0)).bind fun minor => some (qn, sn, max eq es, major, inter, minor)) = _
    rw [h2, h3, hA, hA, hA]
    simp only [Option.bind_some]
    rw [h4, h5]
    rfl

/-- One iteration. -/
theorem iterate_near (hP : MorePrecise F R S sols) {cfg : Config} (hgen : Generic cfg) (hcen : cfg.reduced = true → ∀ p ∈ cfg.pts, rel cfg p ≠ 0)
    {n : Nat} {e e' : Ellipsoid} (hr : Reached cfg n e) (hn : (n : Int) < cfg.wall) (hax : PrincipalAxes cfg e e') {sts : ι → PState}
    (h : InStep F cfg n e sts) :
    ∃ (sts' : ι → PState) (M I N : ι → Vec ℝ), (∀ᶠ i in F, volumeIterate (R i) (S i) { cfg with solver := sols i } (sts i) = some (sts' i)) ∧
      Tendsto (fun i => (sts' i).q) F (𝓝 e'.q) ∧ Tendsto (fun i => (sts' i).s) F (𝓝 e'.s) ∧ AxesNear F M I N e' ∧
      (∀ i, (sts' i).morph = ⟨cfg.d, (sts' i).q, (sts' i).s, M i, I i, N i⟩) ∧ (∀ i, (sts' i).iteration = n + 2) ∧
      (Settled cfg e e' → ∀ᶠ i in F, ¬ (sts' i).err > cfg.tol) ∧ (¬ Settled cfg e e' → ∀ᶠ i in F, (sts' i).err > cfg.tol) ∧
      (Reached cfg (n + 1) e' → ((n + 1 : ℕ) : Int) < cfg.wall → ∃ r : ι → Pt → ℝ, (∀ p ∈ cfg.pts, Tendsto (fun i => r i p) F
        (𝓝 √(ellipsoidal2 e'.major e'.inter e'.minor e'.q e'.s (rel cfg p)))) ∧ ∀ᶠ i in F, (sts' i).sel = (members cfg e').map fun p => (p, r i p)) := by
  have hu := hP.double
  obtain ⟨r, hrad, hsel⟩ := h.sel hn
  obtain ⟨q, s, err, M, I, N, lq, ls, lerr, haxes, hnew⟩ := shape_near hP hcen hr hax h.q h.s hrad hsel
  obtain ⟨pq, ps⟩ := axes_pos hax
  obtain ⟨oq, os⟩ := ratios_pos hr
  obtain ⟨cq, cs⟩ := hgen.change n e e' hr hn hax
  have hsome := tests_some hu cfg lq ls pq.ne' ps.ne' (hgen.axes n e e' hr hn hax) M I N
  refine ⟨fun i => { q := q i, s := s i, err := err i, iteration := n + 2
                     sel := select cfg.pts (cfg.pts.map fun p => (R i).rnd √(outVal (R i) cfg (q i) (s i) (M i) (I i) (N i) p))
                       (cfg.pts.map (testVal (R i) cfg (q i) (s i) (M i) (I i) (N i)))
                     morph := ⟨cfg.d, q i, s i, M i, I i, N i⟩ }, M, I, N, ?_, lq, ls, haxes, fun i => rfl, fun i => rfl, ?_, ?_, ?_⟩
  · filter_upwards [hnew, hsome] with i h1 h2
    unfold volumeIterate
    rw [h1]
    have e1 : ((cfg.pts.map fun p => ![along (R i) cfg (M i) p, along (R i) cfg (I i) p, along (R i) cfg (N i) p]).mapM fun y =>
        (ellNorm2 (R i) (q i) (s i) y).map fun x => (R i).rnd √x) =
        some (cfg.pts.map fun p => (R i).rnd √(outVal (R i) cfg (q i) (s i) (M i) (I i) (N i) p)) :=
      mapM_map_some _ _ _ _ fun p => by rw [h2.1 p]; rfl
    have e2 : (cfg.pts.map fun p => ![along (R i) cfg (M i) p, along (R i) cfg (I i) p, along (R i) cfg (N i) p]).mapM (laterTestIn (R i) cfg (q i) (s i)) =
        some (cfg.pts.map (testVal (R i) cfg (q i) (s i) (M i) (I i) (N i))) := mapM_map_some _ _ _ _ fun p => h2.2 p
    show (((cfg.pts.map fun p => ![along (R i) cfg (M i) p, along (R i) cfg (I i) p, along (R i) cfg (N i) p]).mapM fun y =>
        (ellNorm2 (R i) (q i) (s i) y).map fun x => (R i).rnd √x).bind fun rs =>
      ((cfg.pts.map fun p => ![along (R i) cfg (M i) p, along (R i) cfg (I i) p, along (R i) cfg (N i) p]).mapM (laterTestIn (R i) cfg (q i) (s i))).bind fun tests =>
      some ({ q := q i, s := s i, err := err i, iteration := (sts i).iteration + 1, sel := select cfg.pts rs tests, morph := ⟨cfg.d, q i, s i, M i, I i, N i⟩ } : PState)) = _
    rw [e1, e2, h.iteration i]
    rfl
  · rintro ⟨s1, s2⟩
    have b1 : |e'.q - e.q| / e.q < cfg.tol := (div_lt_iff₀ oq).2 (lt_of_le_of_ne s1 cq)
    have b2 : |e'.s - e.s| / e.s < cfg.tol := (div_lt_iff₀ os).2 (lt_of_le_of_ne s2 cs)
    filter_upwards [lerr.eventually_lt_const (max_lt b1 b2)] with i hi
    exact not_lt.2 hi.le
  · intro hns
    have b : cfg.tol < max (|e'.q - e.q| / e.q) (|e'.s - e.s| / e.s) := by
      rw [lt_max_iff]
      by_contra hc
      push Not at hc
      exact hns ⟨(div_le_iff₀ oq).1 hc.1, (div_le_iff₀ os).1 hc.2⟩
    exact lerr.eventually_const_lt b
  · intro hr' hn'
    refine ⟨fun i p => (R i).rnd √(outVal (R i) cfg (q i) (s i) (M i) (I i) (N i) p), fun p hp => ?_, ?_⟩
    · exact lim_rnd hu ((Real.continuous_sqrt.tendsto _).comp (lim_out hu cfg haxes lq ls pq.ne' ps.ne' p))
    · filter_upwards [tests_right hu hgen hr' hn' ⟨pq, ps⟩ haxes lq ls] with i hi
      show select _ _ _ = _
      rw [select_fun]
      congr 1
      unfold members
      refine List.filter_congr fun p hp => ?_
      classical
      rw [Bool.eq_iff_iff, decide_eq_true_eq]
      exact hi p hp

/-- The computed forms approach the exact one in all directions at the same time. -/
theorem forms_close {M I N : ι → Vec ℝ} {e : Ellipsoid} (hax : AxesNear F M I N e) (ho : Orthonormal e.major e.inter e.minor)
    {q s : ι → ℝ} (hq : Tendsto q F (𝓝 e.q)) (hs : Tendsto s F (𝓝 e.s)) (q0 : 0 < e.q) (s0 : 0 < e.s) (q1 : e.q ≤ 1) (s1 : e.s ≤ 1) {ε : ℝ} (hε : 0 < ε) :
    ∀ᶠ l in F, ∀ w, |ellipsoidal2 (M l) (I l) (N l) (q l) (s l) w - ellipsoidal2 e.major e.inter e.minor e.q e.s w| ≤
      ε * ellipsoidal2 e.major e.inter e.minor e.q e.s w := by
  set B : Vec ℝ → Vec ℝ → Vec ℝ → ℝ → ℝ → Tensor := fun x y z q s i j => x i * x j + y i * y j / q ^ 2 + z i * z j / s ^ 2 with hB
  have hform : ∀ x y z q s w, form (B x y z q s) w = ellipsoidal2 x y z q s w := by
    intro x y z q s w
    simp only [hB, form, ellipsoidal2, dot]
    ring
  have polar : ∀ x y z q s i j, B x y z q s i j = (ellipsoidal2 x y z q s (fun k => (if k = i then 1 else 0) + if k = j then 1 else 0) -
      ellipsoidal2 x y z q s (fun k => if k = i then 1 else 0) - ellipsoidal2 x y z q s fun k => if k = j then 1 else 0) / 2 := by
    intro x y z q s i j
    have hd : ∀ v : Vec ℝ, ∀ i, (dot v fun k => if k = i then 1 else 0) = v i := by
      intro v i
      unfold dot
      fin_cases i <;> simp
    have hd2 : ∀ v : Vec ℝ, (dot v fun k => (if k = i then 1 else 0) + if k = j then 1 else 0) = v i + v j := by
      intro v
      rw [← hd v i, ← hd v j]
      unfold dot
      ring
    simp only [hB, ellipsoidal2, hd, hd2]
    ring
  have hlim : ∀ i j, Tendsto (fun l => B (M l) (I l) (N l) (q l) (s l) i j) F (𝓝 (B e.major e.inter e.minor e.q e.s i j)) := by
    intro i j
    rw [tendsto_iff_ultrafilter]
    intro g hg
    obtain ⟨e', hsf, hM, hI, hN⟩ := hax g hg
    have e1 : B e.major e.inter e.minor e.q e.s i j = B e'.major e'.inter e'.minor e'.q e'.s i j := by
      rw [polar, polar]
      simp only [hsf.surf]
    rw [e1, hsf.q, hsf.s]
    exact (((hM i).mul (hM j)).add (((hI i).mul (hI j)).div ((hq.mono_left hg).pow 2) (by positivity))).add
      (((hN i).mul (hN j)).div ((hs.mono_left hg).pow 2) (by positivity))
  filter_upwards [(Shapes.distance_tendsto hlim).eventually_lt_const hε] with l hl w
  have h1 := Shapes.form_diff (B e.major e.inter e.minor e.q e.s) (B (M l) (I l) (N l) (q l) (s l)) w
  rw [hform, hform] at h1
  have h2 : dot w w ≤ ellipsoidal2 e.major e.inter e.minor e.q e.s w := by
    rw [← parseval ho w]
    unfold ellipsoidal2
    have k : ∀ {x y : ℝ}, 0 < y → y ≤ 1 → x ^ 2 ≤ x ^ 2 / y ^ 2 := by
      intro x y hy hy1
      exact (le_div_iff₀ (by positivity)).2 (mul_le_of_le_one_right (sq_nonneg x) (pow_le_one₀ hy.le hy1))
    have := k (x := dot e.inter w) q0 q1
    have := k (x := dot e.minor w) s0 s1
    linarith
  have h3 : 0 ≤ dot w w := by unfold dot; nlinarith [sq_nonneg (w 0), sq_nonneg (w 1), sq_nonneg (w 2)]
  refine h1.trans ((mul_le_mul_of_nonneg_right hl.le h3).trans (mul_le_mul_of_nonneg_left h2 hε.le))

theorem start_near (hu : Tendsto (fun i => (R i).u) F (𝓝 0)) {cfg : Config} (hgen : Generic cfg) (htol : cfg.tol < 1) (morph : Morph) (sols : ι → Solver) :
    InStep F cfg 0 sphere fun i => volumeStart (R i) { cfg with solver := sols i } morph := by
  refine ⟨tendsto_const_nhds, tendsto_const_nhds, fun i => rfl, Eventually.of_forall fun i => htol, fun hn => ?_⟩
  have hdot : ∀ p : Pt, dot (rel cfg p) (rel cfg p) = (cfg.center 0 - p.x 0) ^ 2 + (cfg.center 1 - p.x 1) ^ 2 + (cfg.center 2 - p.x 2) ^ 2 := by
    intro p
    unfold dot rel
    ring
  have hE : ∀ p, ellipsoidal2 sphere.major sphere.inter sphere.minor sphere.q sphere.s (rel cfg p) = dot (rel cfg p) (rel cfg p) := by
    intro p
    simp only [ellipsoidal2, sphere, dot]
    simp
    ring
  have hc : ∀ (p : Pt) k, Tendsto (fun i => (R i).sub (cfg.center k) (p.x k)) F (𝓝 (cfg.center k - p.x k)) := fun p k =>
    lim_sub hu tendsto_const_nhds tendsto_const_nhds
  have hnorm : ∀ p : Pt, Tendsto (fun i => norm2 (R i) fun k => (R i).sub (cfg.center k) (p.x k)) F (𝓝 (dot (rel cfg p) (rel cfg p))) := by
    intro p
    rw [hdot]
    exact lim_add hu (lim_add hu (lim_pow hu (hc p 0) 2) (lim_pow hu (hc p 1) 2)) (lim_pow hu (hc p 2) 2)
  refine ⟨fun i p => ((ellNorm2 (R i) 1 1 fun k => (R i).sub (cfg.center k) (p.x k)).map fun x => (R i).rnd √x).getD 0, fun p hp => ?_, ?_⟩
  · rw [hE, hdot]
    have hone : ∀ i, (R i).pow 1 2 ≠ 0 := fun i => (rnd_pos (R i) (by norm_num)).ne'
    have h1 : Tendsto (fun i => (R i).pow 1 2) F (𝓝 (1 ^ 2)) := lim_pow hu tendsto_const_nhds 2
    rw [one_pow] at h1
    have h2 := lim_add hu (lim_add hu (lim_pow hu (hc p 0) 2) (lim_div hu (lim_pow hu (hc p 1) 2) h1 one_ne_zero))
      (lim_div hu (lim_pow hu (hc p 2) 2) h1 one_ne_zero)
    simp only [div_one] at h2
    refine (lim_rnd hu ((Real.continuous_sqrt.tendsto _).comp h2)).congr fun i => ?_
    have e1 : (ellNorm2 (R i) 1 1 fun k => (R i).sub (cfg.center k) (p.x k)) = some ((R i).add ((R i).add ((R i).pow ((R i).sub (cfg.center 0) (p.x 0)) 2)
        ((R i).div ((R i).pow ((R i).sub (cfg.center 1) (p.x 1)) 2) ((R i).pow 1 2))) ((R i).div ((R i).pow ((R i).sub (cfg.center 2) (p.x 2)) 2) ((R i).pow 1 2))) := by
      unfold ellNorm2
      rw [if_neg (hone i), if_neg (hone i)]
    beta_reduce
    rw [e1]
    rfl
  · have hright : ∀ᶠ i in F, ∀ p ∈ cfg.pts, (firstTestIn (R i) cfg p = true ↔
        Inside cfg sphere.major sphere.inter sphere.minor sphere.q sphere.s p) := by
      have hfin : {p | p ∈ cfg.pts}.Finite := List.finite_toSet _
      refine (Filter.eventually_all_finite hfin).2 fun p hp => ?_
      have hd := lim_pow hu (tendsto_const_nhds (x := cfg.d)) 2
      have outer : ∀ᶠ i in F, (norm2 (R i) (fun k => (R i).sub (cfg.center k) (p.x k)) < (R i).pow cfg.d 2 ↔
          ellipsoidal2 sphere.major sphere.inter sphere.minor sphere.q sphere.s (rel cfg p) < cfg.d ^ 2) := by
        have hne := hgen.surface 0 _ .sphere hn p hp
        rw [hE] at hne ⊢
        rcases lt_or_gt_of_ne hne with hlt | hgt
        · filter_upwards [(hnorm p).eventually_lt hd hlt] with i hi
          exact iff_of_true hi hlt
        · filter_upwards [hd.eventually_lt (hnorm p) hgt] with i hi
          exact iff_of_false (not_lt.2 hi.le) (not_lt.2 hgt.le)
      rcases hδ : cfg.deltaD with _ | δ
      · filter_upwards [outer] with i hi
        unfold firstTestIn firstTest
        rw [hδ, inside_iff, ← hi]
        simp [hδ]
      · by_cases hdd : cfg.d = δ
        · filter_upwards [outer] with i hi
          unfold firstTestIn firstTest
          rw [hδ, inside_iff, ← hi]
          have hz : (R i).pow ((R i).sub cfg.d δ) 2 = 0 := by
            unfold Rounding.pow Rounding.sub
            rw [hdd, sub_self, rnd_zero, zero_pow two_ne_zero, rnd_zero]
          have hnn : 0 ≤ norm2 (R i) fun k => (R i).sub (cfg.center k) (p.x k) :=
            rnd_nonneg _ (add_nonneg (rnd_nonneg _ (add_nonneg (rnd_nonneg _ (sq_nonneg _)) (rnd_nonneg _ (sq_nonneg _)))) (rnd_nonneg _ (sq_nonneg _)))
          simp only [hz, hδ, Bool.and_eq_true, decide_eq_true_eq, ge_iff_le, hnn, and_true, Option.some.injEq, forall_eq']
          exact ⟨fun h => ⟨h, fun hne => absurd hdd hne⟩, fun h => h.1⟩
        · have hpos : 0 < (cfg.d - δ) ^ 2 := by
            have := sub_ne_zero.2 hdd
            positivity
          have hI : inner2 cfg.d δ sphere (rel cfg p) = dot (rel cfg p) (rel cfg p) / (cfg.d - δ) ^ 2 := by
            simp only [inner2, sphere, dot, one_mul]
            simp
            ring
          have hne := hgen.inner 0 _ .sphere hn δ hδ hdd p hp
          have hdδ := lim_pow hu (lim_sub hu (tendsto_const_nhds (x := cfg.d)) (tendsto_const_nhds (x := δ))) 2
          have inner : ∀ᶠ i in F, (norm2 (R i) (fun k => (R i).sub (cfg.center k) (p.x k)) ≥ (R i).pow ((R i).sub cfg.d δ) 2 ↔
              1 ≤ inner2 cfg.d δ sphere (rel cfg p)) := by
            rw [hI] at hne ⊢
            rcases lt_or_gt_of_ne hne with hlt | hgt
            · have hlt' := (div_lt_one hpos).1 hlt
              filter_upwards [(hnorm p).eventually_lt hdδ hlt'] with i hi
              exact iff_of_false (not_le.2 hi) (not_le.2 hlt)
            · have hgt' := (one_lt_div hpos).1 hgt
              filter_upwards [hdδ.eventually_lt (hnorm p) hgt'] with i hi
              exact iff_of_true hi.le hgt.le
          filter_upwards [outer, inner] with i hi hi'
          unfold firstTestIn firstTest
          rw [hδ, inside_iff, ← hi]
          simp only [hδ, Option.some.injEq, forall_eq', Bool.and_eq_true, decide_eq_true_eq, hi']
          exact ⟨fun h => ⟨h.1, fun _ => h.2⟩, fun h => ⟨h.1, h.2 hdd⟩⟩
    filter_upwards [hright] with i hi
    show select _ _ _ = _
    have := select_fun cfg.pts (fun p => ((ellNorm2 (R i) 1 1 fun k => (R i).sub (cfg.center k) (p.x k)).map fun x => (R i).rnd √x).getD 0)
      (firstTestIn (R i) cfg)
    refine Eq.trans this ?_
    congr 1
    unfold members
    refine List.filter_congr fun p hp => ?_
    classical
    rw [Bool.eq_iff_iff, decide_eq_true_eq]
    exact hi p hp

/-- Along the way to the exact result. -/
theorem path_in_step (hP : MorePrecise F R S sols) {cfg : Config} (hgen : Generic cfg) (hcen : cfg.reduced = true → ∀ p ∈ cfg.pts, rel cfg p ≠ 0)
    (htol : cfg.tol < 1) (morph : Morph) {n : Nat} {e : Ellipsoid} (hr : Reached cfg n e) (hn : n ≤ cfg.wall.toNat) :
    ∃ sts : ι → PState, InStep F cfg n e sts ∧ ∀ᶠ i in F, ∀ k, volumeRun (R i) (S i) (n + k) { cfg with solver := sols i } morph =
      loop (volumeStep (R i) (S i) { cfg with solver := sols i }) k (sts i) := by
  induction hr with
  | sphere =>
    refine ⟨_, start_near hP.double hgen htol morph sols, Eventually.of_forall fun i k => ?_⟩
    rw [zero_add]
    rfl
  | @step n e e' hr hmin hax hns ih =>
    obtain ⟨sts, hst, hrun⟩ := ih (by omega)
    have hw : (n : Int) < cfg.wall := by omega
    obtain ⟨sts', M, I, N, hit, lq, ls, -, -, hiter, -, herr, hsel⟩ := iterate_near hP hgen hcen hr hw hax hst
    refine ⟨sts', ⟨lq, ls, hiter, herr hns, hsel (hr.step hmin hax hns)⟩, ?_⟩
    obtain ⟨r, -, hsel'⟩ := hst.sel hw
    filter_upwards [hrun, hst.err, hsel', hit] with i h1 h2 h3 h4
    intro k
    have hlen : (sts i).sel.length = (members cfg e).length := by rw [h3, List.length_map]
    rw [show n + 1 + k = n + (k + 1) by ring, h1]
    have hstep : volumeStep (R i) (S i) { cfg with solver := sols i } (sts i) = .go (sts' i) := by
      unfold volumeStep
      rw [if_pos h2, if_neg (show ¬ ((sts i).iteration : Int) > cfg.wall by rw [hst.iteration i]; push_cast; omega),
        if_neg (show ¬ ((sts i).sel.length : Int) < cfg.itMin by rw [hlen]; omega), h4]
    rw [loop, hstep]

/-- C182. Ellipsoids and shells, plain and reduced tensor. Nothing is decided by a hair's breadth (`Generic`), masses are positive, and exact arithmetic
with an exact eigensolver comes to the report `m`. Then with sufficiently precise arithmetic and a sufficiently stable eigensolver the program comes to a
report as well: a gap if `m` is one, otherwise with ratios within `ε` of those of `m` and ellipsoidal distances which differ by less than the fraction `ε`
in every direction. -/
theorem C182_precise (hP : MorePrecise F R S sols) (cfg : Config) (hgen : Generic cfg)
    (hcen : cfg.reduced = true → ∀ p ∈ cfg.pts, Shapes.rel cfg p ≠ 0) (hsol : GoodSolver cfg.solver) (hm : ∀ p ∈ cfg.pts, 0 < p.m)
    (htol : cfg.tol < 1) (morph : Morph) (fuel : Nat) (hfuel : cfg.wall.toNat + 1 ≤ fuel)
    (sc : Scratch) (hfit : Fits cfg sc) (m : Morph) (sc₁ : Scratch) (hrun : runAlgo fuel cfg morph sc = some (some (m, sc₁)))
    (ε : ℝ) (hε : 0 < ε) :
    ∀ᶠ i in F, ∃ m', volumeRun (R i) (S i) fuel { cfg with solver := sols i } morph = some (some m') ∧ CloseReports ε m m' := by
  rcases C105_outcome cfg morph sc hfit hsol hm htol fuel hfuel with ⟨m₁, sc₃, hrun₁, hc⟩ | ⟨sc₃, hrun₁, hu⟩ | ⟨hrun₁, -⟩
  · obtain rfl : m = m₁ := by
      rw [hrun₁] at hrun
      exact ((Prod.mk.inj (Option.some.inj (Option.some.inj hrun))).1).symm
    obtain ⟨n, e, e', hr, hn, hmin, hax, hset, rfl⟩ := hc
    obtain ⟨sts, hst, hpath⟩ := path_in_step hP hgen hcen htol morph hr (by omega)
    obtain ⟨sts', M, I, N, hit, lq, ls, haxes, hmorph, -, herr, -, -⟩ := iterate_near hP hgen hcen hr hn hax hst
    obtain ⟨q0, s0⟩ := axes_pos hax
    obtain ⟨q1, s1⟩ : e'.q ≤ 1 ∧ e'.s ≤ 1 := by
      obtain ⟨a, b, c, hp, hq, hs⟩ := hax.principal
      have hc := hp.pos
      have hb : 0 < b := hc.trans_le hp.cb
      have ha : 0 < a := hb.trans_le hp.ba
      rw [hq, hs]
      exact ⟨(div_le_one ha).2 hp.ba, (div_le_one ha).2 (hp.cb.trans hp.ba)⟩
    have close : ∀ (u : ι → ℝ) (v : ℝ), Tendsto u F (𝓝 v) → ∀ᶠ i in F, |u i - v| ≤ ε := by
      intro u v hu
      have := (hu.sub_const v).abs
      rw [sub_self, abs_zero] at this
      filter_upwards [this.eventually_lt_const hε] with i hi using hi.le
    obtain ⟨r, -, hsel⟩ := hst.sel hn
    filter_upwards [hpath, hst.err, hsel, hit, herr hset, lq.eventually_const_lt q0, close _ _ lq, close _ _ ls,
      forms_close haxes hax.axes lq ls q0 s0 q1 s1 hε] with i h1 h2 h3 h4 h5 h6 h7 h8 h9
    have hlen : (sts i).sel.length = (members cfg e).length := by rw [h3, List.length_map]
    refine ⟨⟨cfg.d, (sts' i).q, (sts' i).s, M i, I i, N i⟩, ?_, ⟨iff_of_false ?_ ?_, ?_, h7, h8, fun _ w => h9 w⟩⟩
    · obtain ⟨k, rfl⟩ : ∃ k, fuel = n + (k + 2) := ⟨fuel - n - 2, by omega⟩
      rw [h1]
      have hstep : volumeStep (R i) (S i) { cfg with solver := sols i } (sts i) = .go (sts' i) := by
        unfold volumeStep
        rw [if_pos h2, if_neg (show ¬ ((sts i).iteration : Int) > cfg.wall by rw [hst.iteration i]; push_cast; omega),
          if_neg (show ¬ ((sts i).sel.length : Int) < cfg.itMin by rw [hlen]; omega), h4]
      have hstop : volumeStep (R i) (S i) { cfg with solver := sols i } (sts' i) = .stop (some (sts' i).morph) := by
        unfold volumeStep
        rw [if_neg h5]
      rw [loop, hstep]
      show loop _ (k + 1) (sts' i) = _
      rw [loop, hstop, hmorph i]
    · intro hz
      have : (sts' i).q = 0 := congrArg Morph.q hz
      linarith
    · intro hz
      have : e'.q = 0 := congrArg Morph.q hz
      linarith
    · show |cfg.d - cfg.d| ≤ ε
      rw [sub_self, abs_zero]
      exact hε.le
  · obtain rfl : m = .zero := by
      rw [hrun₁] at hrun
      exact ((Prod.mk.inj (Option.some.inj (Option.some.inj hrun))).1).symm
    obtain ⟨n, e, hr, hn, hgap⟩ : ∃ n e, Reached cfg n e ∧ n ≤ cfg.wall.toNat ∧ (cfg.wall ≤ (n : Int) ∨
        ((n : Int) < cfg.wall ∧ ((members cfg e).length : Int) < cfg.itMin)) := by
      obtain ⟨n, e, hr, hgap⟩ := hu
      rcases lt_or_ge (n : Int) cfg.wall with hlt | hge
      · exact ⟨n, e, hr, by omega, .inr ⟨hlt, by omega⟩⟩
      · rcases Nat.lt_or_ge cfg.wall.toNat n with hlt | hle
        · obtain ⟨e₁, -, r1, -⟩ := reached_before hr _ hlt
          exact ⟨_, e₁, r1, le_rfl, .inl (by omega)⟩
        · exact ⟨n, e, hr, hle, .inl hge⟩
    obtain ⟨sts, hst, hpath⟩ := path_in_step hP hgen hcen htol morph hr hn
    have hstop : ∀ᶠ i in F, volumeStep (R i) (S i) { cfg with solver := sols i } (sts i) = .stop (some .zero) := by
      rcases hgap with hw | ⟨hlt, hfew⟩
      · filter_upwards [hst.err] with i h1
        unfold volumeStep
        rw [if_pos h1, if_pos (show ((sts i).iteration : Int) > cfg.wall by rw [hst.iteration i]; push_cast; omega)]
      · obtain ⟨r, -, hsel⟩ := hst.sel hlt
        filter_upwards [hst.err, hsel] with i h1 h2
        have hlen : (sts i).sel.length = (members cfg e).length := by rw [h2, List.length_map]
        unfold volumeStep
        rw [if_pos h1, if_neg (show ¬ ((sts i).iteration : Int) > cfg.wall by rw [hst.iteration i]; push_cast; omega),
          if_pos (show ((sts i).sel.length : Int) < cfg.itMin by rw [hlen]; omega)]
    filter_upwards [hpath, hstop] with i h1 h2
    refine ⟨.zero, ?_, Iff.rfl, ?_, ?_, ?_, fun hz => absurd rfl hz⟩
    · obtain ⟨k, rfl⟩ : ∃ k, fuel = n + (k + 1) := ⟨fuel - n - 1, by omega⟩
      rw [h1, loop, h2]
    all_goals rw [sub_self, abs_zero]; exact hε.le
  · rw [hrun₁] at hrun
    cases hrun

end

/-- The hypotheses of `C182_precise` are met: with more and more binary digits, the shell of six particles gets the ratios 4/5 and 3/5. -/
example (sol : Solver) (hsol : GoodSolver sol) (morph : Morph) (ε : ℝ) (hε : 0 < ε) :
    ∃ P : ℕ, ∀ p, P ≤ p → ∃ m, volumeRun (binary (p + 30) (by omega)) (binary (p + 1) (by omega)) 200 (shellCfg sol) morph = some (some m) ∧
      |m.q - 4 / 5| ≤ ε ∧ |m.s - 3 / 5| ≤ ε := by
  have hu : ∀ k : ℕ, Tendsto (fun p : ℕ => ((1 / 2 : ℝ)) ^ (p + k)) atTop (𝓝 0) := fun k =>
    (tendsto_pow_atTop_nhds_zero_of_lt_one (by norm_num) (by norm_num)).comp (tendsto_add_atTop_nat k)
  have hP : MorePrecise atTop (fun p : ℕ => binary (p + 30) (by omega)) (fun p : ℕ => binary (p + 1) (by omega)) (fun _ => sol) :=
    ⟨hu 30, hu 1, fun _ => 0, tendsto_const_nhds, fun _ => GoodSolver.stable hsol⟩
  have hrel : ∀ p ∈ (shellCfg sol).pts, Shapes.rel (shellCfg sol) p ≠ 0 := by
    intro p hp hz
    have := (shell_radii sol (.inl rfl) p hp).2
    rw [hz] at this
    simp [inner2, dot] at this
    linarith
  have hm : ∀ p ∈ (shellCfg sol).pts, 0 < p.m := by
    intro p hp
    simp only [shellCfg, List.mem_cons, List.not_mem_nil, or_false] at hp
    rcases hp with rfl | rfl | rfl | rfl | rfl | rfl <;> exact one_pos
  have htol : (shellCfg sol).tol < 1 := by show (1 / 100 : ℝ) < 1; norm_num
  have huns : ¬ Settled (shellCfg sol) sphere shellShape := by
    rintro ⟨h, -⟩
    have h' : |(4 / 5 : ℝ) - 1| ≤ 1 / 100 * 1 := h
    rw [abs_le] at h'
    linarith [h'.1]
  have hset : Settled (shellCfg sol) shellShape shellShape := by
    constructor <;> rw [sub_self, abs_zero]
    · show (0 : ℝ) ≤ 1 / 100 * (4 / 5); norm_num
    · show (0 : ℝ) ≤ 1 / 100 * (3 / 5); norm_num
  have hr1 : Reached (shellCfg sol) 1 shellShape :=
    .step .sphere (by rw [shell_members sol (.inl rfl)]; exact le_refl (6 : Int)) (shell_axes sol (.inl rfl)) huns
  let sc : Scratch := ⟨List.replicate 6 default, List.replicate 6 default, List.replicate 6 default, fun _ _ => 0⟩
  have hfit : Fits (shellCfg sol) sc := ⟨le_refl 6, le_refl 6⟩
  have hgen := shell_generic sol
  obtain ⟨m, sc₁, hrun, -, mq, ms, -⟩ := reports_of_settled (shellCfg sol) (fun _ => hrel) morph sc hfit hsol hm htol hr1 (by show ((1 : ℕ) : Int) < 100; norm_num)
    (by rw [shell_members sol (.inr rfl)]; exact le_refl (6 : Int)) (shell_axes sol (.inr rfl)) hset
    (fun n' e₁ e₂ hle h₁ h₂ => hgen.axes n' e₁ e₂ h₁ (by show (n' : Int) < 100; omega) h₂) 200 (by show (100 : Int).toNat + 1 ≤ 200; decide)
  obtain ⟨P, hall⟩ := eventually_atTop.1 (C182_precise hP (shellCfg sol) hgen (fun _ => hrel) hsol hm htol morph 200
    (by show (100 : Int).toNat + 1 ≤ 200; decide) sc hfit m sc₁ hrun ε hε)
  refine ⟨P, fun p hp => ?_⟩
  obtain ⟨m', h1, h2⟩ := hall p hp
  refine ⟨m', h1, ?_, ?_⟩
  · have := h2.q
    rwa [mq] at this
  · have := h2.s
    rwa [ms] at this

end Verif.Round
