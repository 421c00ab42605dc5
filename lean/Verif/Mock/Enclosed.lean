import Verif.Mock.ShellCounts
import Verif.Mock.PointProps

/-!
# The particles of a mock halo (C162)
-/

namespace Verif.Mock

/-- Positions of all particles, mock_halo_gen.py:105-110: `drawUniformFromShell` for every shell, results stacked in the order of the shells.  The
random generator is an argument: `draws k i` is what is drawn for particle `i` of shell `k`.  (The code draws the directions of all particles of a shell before
their random numbers.) -/
noncomputable def haloPoints (h : Halo) (draws : Nat → Nat → Draw) : List (ℝ × ℝ × ℝ) :=
  (h.counts.zipIdx.map fun nk => (List.range nk.1.toNat).map fun i => place h.axes (draws nk.2 i)).flatten

/-! ## Specification -/

/-- What `np.random.uniform(x[shell_nb], x[shell_nb+1])` may return for `n` shells: numbers at least the first and less than the second bound. -/
def Drawn (n : Nat) (draws : Nat → Nat → Draw) : Prop :=
  ∀ k, k < n → ∀ i, (k : ℝ) / n ≤ (draws k i).rand ∧ (draws k i).rand < (k + 1 : ℝ) / n

/-- Mass of the particles inside the ellipsoid with semi-axes `a, b, c`. -/
noncomputable def massInside (pts : List (ℝ × ℝ × ℝ)) (massPtc a b c : ℝ) : ℝ :=
  ((pts.filter fun p => decide (form a b c p < 1)).length : ℝ) * massPtc

/-- Mass of the model up to the distance `r`, from the smallest radius which is looked at (`1e-8`). -/
noncomputable def modelMass (rho : ℝ) (p : Prof) (r : ℝ) : ℝ := ∫ x in start..r, integrand rho p x

/-! ## Proof -/

theorem getD_pos {l : List ℝ} (hp : ∀ x ∈ l, 0 < x) {j : Nat} (hj : j < l.length) : 0 < l.getD j 0 := by
  rw [List.getD_eq_getElem _ _ hj]
  exact hp _ (List.getElem_mem _)

/-- The interpolated semi-axis is strictly less than the outer one, before the end of the interval. -/
theorem axis_below {n k : Nat} (hk : k < n) (l : List ℝ) (hl : l.length = n) (hp : ∀ x ∈ l, 0 < x)
    (hs : l.Pairwise (· < ·)) {v : ℝ} (h1 : (k : ℝ) / n ≤ v) (h2 : v < (k + 1 : ℝ) / n) :
    interp (knots n) (0 :: l) v < l.getD k 0 := by
  have hn : (0 : ℝ) < n := by exact_mod_cast (by omega : 0 < n)
  rw [interp_between hk _ h1 h2.le]
  have e : (0 :: l).getD (k + 1) 0 = l.getD k 0 := by simp
  rw [e]
  have hlt : (0 :: l).getD k 0 < l.getD k 0 := by
    cases k with
    | zero => simpa using getD_pos hp (by omega : 0 < l.length)
    | succ k =>
      have : (0 :: l).getD (k + 1) 0 = l.getD k 0 := by simp
      rw [this, List.getD_eq_getElem _ _ (by omega), List.getD_eq_getElem _ _ (by omega)]
      exact List.pairwise_iff_getElem.mp hs k (k + 1) (by omega) (by omega) (by omega)
  rw [lt_div_iff₀ hn] at h2
  have ht1 : v * n - k < 1 := by linarith
  nlinarith

/-- A point of shell `j` is inside the ellipsoid `k` exactly if `j ≤ k`. -/
theorem inside_iff (s : Axes) (n : Nat) (hs : Shells s n) (hsa : s.a.Pairwise (· < ·)) (hsb : s.b.Pairwise (· < ·))
    (hsc : s.c.Pairwise (· < ·)) (j k : Nat) (hj : j < n) (hk : k < n) (p : Draw)
    (h1 : (j : ℝ) / n ≤ p.rand) (h2 : p.rand < (j + 1 : ℝ) / n) :
    form (s.a.getD k 0) (s.b.getD k 0) (s.c.getD k 0) (place s p) < 1 ↔ j ≤ k := by
  obtain ⟨a1, -, a3⟩ := axis_between hj s.a hs.la hs.pa hs.sa h1 h2.le
  obtain ⟨b1, -, b3⟩ := axis_between hj s.b hs.lb hs.pb hs.sb h1 h2.le
  obtain ⟨c1, -, c3⟩ := axis_between hj s.c hs.lc hs.pc hs.sc h1 h2.le
  have a2 := axis_below hj s.a hs.la hs.pa hsa h1 h2
  have b2 := axis_below hj s.b hs.lb hs.pb hsb h1 h2
  have c2 := axis_below hj s.c hs.lc hs.pc hsc h1 h2
  have pa := getD_pos hs.pa (by rw [hs.la]; exact hk : k < s.a.length)
  have pb := getD_pos hs.pb (by rw [hs.lb]; exact hk : k < s.b.length)
  have pc := getD_pos hs.pc (by rw [hs.lc]; exact hk : k < s.c.length)
  unfold place form
  simp only [hs.la]
  set t := arctan2 (Real.sqrt (p.x ^ 2 + p.y ^ 2)) p.z
  set f := arctan2 p.y p.x
  set A := interp (knots n) (0 :: s.a) p.rand
  set B := interp (knots n) (0 :: s.b) p.rand
  set C := interp (knots n) (0 :: s.c) p.rand
  have hu := unit_angles t f
  set u := Real.sin t * Real.cos f
  set v := Real.sin t * Real.sin f
  set w := Real.cos t
  rw [mul_div_assoc, mul_div_assoc, mul_div_assoc, mul_pow, mul_pow, mul_pow]
  constructor
  · intro h
    by_contra hjk
    obtain ⟨i, rfl⟩ : ∃ i, j = i + 1 := ⟨j - 1, by omega⟩
    have down : ∀ (l : List ℝ) (X : ℝ), l.length = n → l.Pairwise (· ≤ ·) → 0 < l.getD k 0 → (0 :: l).getD (i + 1) 0 ≤ X →
        1 ≤ (X / l.getD k 0) ^ 2 := by
      intro l X hl hsl hpos hX
      have e : (0 :: l).getD (i + 1) 0 = l.getD i 0 := by simp
      rw [e] at hX
      have h3 := (getD_mono hsl (by omega : k ≤ i) (by omega)).trans hX
      have h4 : 1 ≤ X / l.getD k 0 := by rw [one_le_div hpos]; exact h3
      nlinarith
    have d1 := down s.a A hs.la hs.sa pa a1
    have d2 := down s.b B hs.lb hs.sb pb b1
    have d3 := down s.c C hs.lc hs.sc pc c1
    nlinarith [sq_nonneg u, sq_nonneg v, sq_nonneg w]
  · intro hjk
    have up : ∀ (l : List ℝ) (X : ℝ), l.length = n → l.Pairwise (· ≤ ·) → 0 < l.getD k 0 → 0 ≤ X → X < l.getD j 0 →
        (X / l.getD k 0) ^ 2 < 1 := by
      intro l X hl hsl hpos h0 hX
      have h3 := hX.trans_le (getD_mono hsl hjk (by omega))
      have h4 : X / l.getD k 0 < 1 := by rw [div_lt_one hpos]; exact h3
      have h5 : 0 ≤ X / l.getD k 0 := div_nonneg h0 hpos.le
      nlinarith
    have d1 := up s.a A hs.la hs.sa pa a3 a2
    have d2 := up s.b B hs.lb hs.sb pb b3 b2
    have d3 := up s.c C hs.lc hs.sc pc c3 c2
    set x := (A / s.a.getD k 0) ^ 2
    set y := (B / s.b.getD k 0) ^ 2
    set z := (C / s.c.getD k 0) ^ 2
    have hm : ∃ m, m < 1 ∧ x ≤ m ∧ y ≤ m ∧ z ≤ m :=
      ⟨max x (max y z), by simp [d1, d2, d3], le_max_left _ _, (le_max_left _ _).trans (le_max_right _ _),
        (le_max_right _ _).trans (le_max_right _ _)⟩
    obtain ⟨m, m1, m2, m3, m4⟩ := hm
    nlinarith [sq_nonneg u, sq_nonneg v, sq_nonneg w]

theorem length_flatten_range (f : Nat → Nat → ℝ × ℝ × ℝ) (l : List ℤ) (m : Nat) (hl : ∀ x ∈ l, 0 ≤ x) :
    ((((l.zipIdx m).map fun nk => (List.range nk.1.toNat).map fun i => f nk.2 i).flatten.length : Nat) : ℤ) = l.sum := by
  induction l generalizing m with
  | nil => rfl
  | cons x l ih =>
    have h1 := ih (m + 1) fun y hy => hl y (List.mem_cons_of_mem _ hy)
    have h0 := hl x List.mem_cons_self
    rw [List.zipIdx_cons, List.map_cons, List.flatten_cons, List.length_append, List.length_map, List.length_range, Nat.cast_add, h1,
      List.sum_cons]
    simp only
    rw [Int.toNat_of_nonneg h0]

theorem length_filter_range (f : Nat → Nat → ℝ × ℝ × ℝ) (P : ℝ × ℝ × ℝ → Prop) [DecidablePred P] (k : Nat) (l : List ℤ) (m : Nat)
    (hl : ∀ x ∈ l, 0 ≤ x) (hP : ∀ j i, m ≤ j → j < m + l.length → (P (f j i) ↔ j ≤ k)) :
    (((((l.zipIdx m).map fun nk => (List.range nk.1.toNat).map fun i => f nk.2 i).flatten.filter fun p => decide (P p)).length : Nat) : ℤ) =
      (l.take (k + 1 - m)).sum := by
  induction l generalizing m with
  | nil => simp
  | cons x l ih =>
    have h1 := ih (m + 1) (fun y hy => hl y (List.mem_cons_of_mem _ hy)) (fun j i h1 h2 => hP j i (by omega) (by simp only [List.length_cons]; omega))
    have h0 := hl x List.mem_cons_self
    rw [List.zipIdx_cons, List.map_cons, List.flatten_cons, List.filter_append, List.length_append, Nat.cast_add, h1]
    by_cases hk : m ≤ k
    · have e : ((List.range x.toNat).map fun i => f m i).filter (fun p => decide (P p)) = (List.range x.toNat).map fun i => f m i := by
        rw [List.filter_eq_self]
        intro p hp
        obtain ⟨i, -, rfl⟩ := List.mem_map.1 hp
        exact decide_eq_true ((hP m i le_rfl (by simp)).2 hk)
      rw [e, List.length_map, List.length_range, Int.toNat_of_nonneg h0, show k + 1 - m = (k + 1 - (m + 1)) + 1 by omega, List.take_succ_cons,
        List.sum_cons]
    · have e : ((List.range x.toNat).map fun i => f m i).filter (fun p => decide (P p)) = [] := by
        rw [List.filter_eq_nil_iff]
        intro p hp
        obtain ⟨i, -, rfl⟩ := List.mem_map.1 hp
        rw [decide_eq_true_eq, hP m i le_rfl (by simp)]
        exact hk
      rw [e, show k + 1 - m = 0 by omega, show k + 1 - (m + 1) = 0 by omega]
      rfl

theorem zipWith_take {β : Type} (f : ℝ → ℝ → β) (a : List ℝ) (x : ℝ) (m : Nat) :
    (List.zipWith f (x :: a) a).take m = List.zipWith f (x :: a.take m) (a.take m) := by
  induction a generalizing x m with
  | nil => simp
  | cons y a ih =>
    cases m with
    | zero => simp
    | succ m =>
      rw [List.zipWith_cons_cons, List.take_succ_cons, ih, List.take_succ_cons, List.zipWith_cons_cons]

theorem take_last (a : List ℝ) (k : Nat) (r x : ℝ) (h : a[k]? = some r) : (a.take (k + 1)).getLastD x = r := by
  rw [List.take_add_one, h]
  simp

/-- C162. Semi-axes which are positive and strictly increasing, an increasing major axis beyond `1e-8`: the particles of the halo are as many as the counts say, their masses add up to
the mass requested, and within every shell surface the mass of the particles is that of the density model up to the semi-major axis of the surface,
up to half a particle mass for every shell inside, and the fraction of the mass times half a particle mass for every shell. -/
theorem C162_enclosed (tot res : ℝ) (htot : 0 < tot) (p : Prof) (hp : p.Pos) (s : Axes) (n : Nat) (hsh : Shells s n)
    (hsa : s.a.Pairwise (· < ·)) (hsb : s.b.Pairwise (· < ·)) (hsc : s.c.Pairwise (· < ·)) (hs : ∀ x ∈ s.a, start < x)
    (h : Halo) (hg : genHalo tot res p s = .ok h) (draws : Nat → Nat → Draw) (hd : Drawn h.axes.a.length draws) :
    ((haloPoints h draws).length : ℝ) * h.massPtc = tot ∧
    ∀ (k : Nat) (ak bk ck : ℝ), h.axes.a[k]? = some ak → h.axes.b[k]? = some bk → h.axes.c[k]? = some ck →
      |massInside (haloPoints h draws) h.massPtc ak bk ck - modelMass h.rho p ak| ≤
        h.massPtc * ((k + 1 : Nat) + h.axes.a.length * (modelMass h.rho p ak / tot)) / 2 := by
  obtain ⟨aLast, k0, a0, a1, l, N1, hl, hrho, -, hax, hcons, hne, hN1, hc, hnn, -⟩ := genHalo_ok hg
  have hsum := C63_shells tot res p hp s hs h hg
  have htm := (C63_total_mass tot res p hp s aLast hl (hs aLast (List.mem_of_getLast? hl)) h hg).1
  have hNpos : (0 : ℝ) < h.counts.sum := by exact_mod_cast (counts_sum_pos hg).1
  have hmp : 0 < h.massPtc := by
    by_contra hneg
    rw [not_lt] at hneg
    nlinarith
  have hrpos : 0 < h.rho := by rw [hrho]; exact div_pos htot (quad0_pos hp start_pos (hs aLast (List.mem_of_getLast? hl)))
  have sa : h.axes.a.Sublist s.a := by rw [hax, iterate_coarsen_a]; exact iterate_sublist _ _
  have sb : h.axes.b.Sublist s.b := by rw [hax, iterate_coarsen_b]; exact iterate_sublist _ _
  have sc : h.axes.c.Sublist s.c := by rw [hax, iterate_coarsen_c]; exact iterate_sublist _ _
  have len : ∀ l l' : List ℝ, l.length = l'.length → (coarsen^[k0] l).length = (coarsen^[k0] l').length := by
    intro l l' hll
    have e : ∀ l : List ℝ, (coarsen^[k0] l).length = (coarsen^[k0] (List.replicate l.length ())).length := by
      intro l
      have := congrArg List.length (iterate_map (fun _ => ()) l k0)
      rw [List.length_map] at this
      rw [← this]
      congr 2
      clear this hll
      induction l with
      | nil => rfl
      | cons x l ih => rw [List.map_cons, ih]; rfl
    rw [e l, e l', hll]
  have hsh' : Shells h.axes h.axes.a.length := by
    refine ⟨rfl, ?_, ?_, fun x hx => hsh.pa x (sa.subset hx), fun x hx => hsh.pb x (sb.subset hx), fun x hx => hsh.pc x (sc.subset hx),
      hsh.sa.sublist sa, hsh.sb.sublist sb, hsh.sc.sublist sc⟩
    · rw [hax, iterate_coarsen_b, iterate_coarsen_a]
      exact len _ _ (hsh.lb.trans hsh.la.symm)
    · rw [hax, iterate_coarsen_c, iterate_coarsen_a]
      exact len _ _ (hsh.lc.trans hsh.la.symm)
  have hclen : h.counts.length = h.axes.a.length := by rw [hc]; simp [counts]
  have hlen : ((haloPoints h draws).length : ℝ) = (h.counts.sum : ℤ) := by
    have := length_flatten_range (fun k i => place h.axes (draws k i)) h.counts 0 hnn
    exact_mod_cast this
  refine ⟨by rw [hlen]; exact htm, ?_⟩
  intro k ak bk ck hak hbk hck
  obtain ⟨hka, ea⟩ := List.getElem?_eq_some_iff.1 hak
  have da : h.axes.a.getD k 0 = ak := by rw [List.getD_eq_getElem?_getD, hak]; rfl
  have db : h.axes.b.getD k 0 = bk := by rw [List.getD_eq_getElem?_getD, hbk]; rfl
  have dc : h.axes.c.getD k 0 = ck := by rw [List.getD_eq_getElem?_getD, hck]; rfl
  have hin : (((haloPoints h draws).filter fun p => decide (form ak bk ck p < 1)).length : ℝ) = ((h.counts.take (k + 1)).sum : ℤ) := by
    have := length_filter_range (fun k i => place h.axes (draws k i)) (fun p => form ak bk ck p < 1) k h.counts 0 hnn (by
      intro j i _ hj
      rw [← da, ← db, ← dc]
      have hj' : j < h.axes.a.length := by omega
      exact inside_iff h.axes _ hsh' (hsa.sublist sa) (hsb.sublist sb) (hsc.sublist sc) j k hj' hka _ (hd j hj' i).1 (hd j hj' i).2)
    exact_mod_cast this
  unfold massInside
  rw [hin]
  have hM : modelMass h.rho p ak = quad (integrand h.rho p) start ak := rfl
  rw [hM]
  have hakpos : start < ak := hs ak (sa.subset (List.mem_of_getElem? hak))
  have hMpos : 0 < quad (integrand h.rho p) start ak := by
    rw [quad_integrand]
    exact mul_pos hrpos (quad0_pos hp start_pos hakpos)
  have hall : ∀ y ∈ h.axes.a.take (k + 1), 0 < y := fun y hy => start_pos.trans (hs y (sa.subset (List.mem_of_mem_take hy)))
  have hpart := shells_sum hp h.rho start start_pos (h.axes.a.take (k + 1)) hall
  rw [take_last _ _ _ _ hak] at hpart
  have hclose := counts_close (quad (integrand h.rho p)) N1 (quad (integrand h.rho p) a0 a1) h.axes.a start
  have hclose' := counts_close (quad (integrand h.rho p)) N1 (quad (integrand h.rho p) a0 a1) (h.axes.a.take (k + 1)) start
  rw [hpart, ← zipWith_take, List.length_take, min_eq_left (by omega : k + 1 ≤ h.axes.a.length)] at hclose'
  rw [hsum] at hclose
  have hc' : h.counts = List.zipWith (fun lo hi => pyRound (N1 * quad (integrand h.rho p) lo hi / quad (integrand h.rho p) a0 a1))
      (start :: h.axes.a) h.axes.a := by rw [hc]; rfl
  rw [← hc'] at hclose hclose'
  generalize quad (integrand h.rho p) start ak = M at *
  have hm1 := mass_ne_zero (m := quad (integrand h.rho p) a0 a1) (by rw [← hN1]; exact hne)
  generalize quad (integrand h.rho p) a0 a1 = m1 at *
  have e1 : (N1 : ℝ) * M / m1 = N1 / m1 * M := by ring
  have e2 : (N1 : ℝ) * tot / m1 = N1 / m1 * tot := by ring
  rw [e1] at hclose'
  rw [e2] at hclose
  generalize (N1 : ℝ) / m1 = kappa at *
  generalize ((h.counts.take (k + 1)).sum : ℤ) = S at *
  generalize (h.counts.sum : ℤ) = N at *
  generalize (h.axes.a.length : ℝ) = len' at *
  generalize h.massPtc = mu at *
  have hM' : M = M / tot * (N * mu) := by rw [htm, div_mul_cancel₀ _ htot.ne']
  have hf : 0 < M / tot := div_pos hMpos htot
  have e3 : (S : ℝ) * mu - M = mu * ((S - kappa * M) - M / tot * (N - kappa * tot)) := by
    have : M / tot * (kappa * tot) = kappa * M := by field_simp
    rw [mul_sub (M / tot), this]
    nlinarith [hM']
  rw [e3, abs_mul, abs_of_pos hmp, mul_div_assoc]
  refine mul_le_mul_of_nonneg_left ?_ hmp.le
  refine (abs_sub _ _).trans ?_
  rw [abs_mul, abs_of_pos hf]
  have := mul_le_mul_of_nonneg_left hclose hf.le
  have e4 : (((k + 1 : Nat) : ℝ) + len' * (M / tot)) / 2 = ((k + 1 : Nat) : ℝ) / 2 + M / tot * (len' / 2) := by ring
  rw [e4]
  exact add_le_add hclose' this

/-- For spheres, `massInside` is the mass within a distance. -/
theorem massInside_sphere (pts : List (ℝ × ℝ × ℝ)) (mu r : ℝ) (hr : 0 < r) :
    massInside pts mu r r r = ((pts.filter fun p => decide (√(p.1 ^ 2 + p.2.1 ^ 2 + p.2.2 ^ 2) < r)).length : ℝ) * mu := by
  unfold massInside
  congr 3
  apply List.filter_congr
  intro p _
  refine decide_eq_decide.2 ?_
  unfold form
  rw [Real.sqrt_lt' hr, div_pow, div_pow, div_pow, ← add_div, ← add_div, div_lt_one (pow_pos hr 2)]

/-- Random numbers which may be drawn: the middle of every interval. -/
example (n : Nat) (hn : 0 < n) : Drawn n fun k _ => ⟨1, 2, 3, ((k : ℝ) + 1 / 2) / n⟩ := by
  intro k hk i
  have : (0 : ℝ) < n := by exact_mod_cast hn
  dsimp only
  rw [div_le_div_iff_of_pos_right this, div_lt_div_iff_of_pos_right this]
  constructor <;> linarith

end Verif.Mock
