import Verif.Mock.Uniform

/-!
# Drawing points in two or three dimensions (C168)

`drawUniformFromEllipsoid` and `drawUniformFromShell`, cosmic_profiles/common/python_routines.py:341-390 and 419-497, with all their
arguments.  Both are documented for two dimensions, "in which case c remains 'None'".  Exceptions (TypeError, IndexError, ValueError)
are `none`.
-/

namespace Verif.Mock

open MeasureTheory

/-! ## Model -/

/-- The argument `c`: `None`, or a sequence whose entries are numbers or `None`. -/
abbrev CArg := Option (List (Option ℝ))

/-- What is drawn for one point: `np.random.normal(0,1,dims)` and `np.random.uniform(0,1,1)`. -/
structure Normal where
  g : List ℝ
  w : ℝ

/-- `Z[i] = R*X_tmp[i]/np.linalg.norm(X_tmp[i])`, python_routines.py:374-377 and 460-463. -/
noncomputable def inBall (dims : Nat) (d : Normal) : List ℝ :=
  d.g.map fun x => d.w ^ ((1 : ℝ) / dims) * x / √(d.g.map (· ^ 2)).sum

/-- The diagonal of `inv(L.T)` for the diagonal matrix `Sigma`, python_routines.py:380-384. -/
noncomputable def stretches (a b : ℝ) : Option ℝ → List ℝ
  | none => [(√(1 / a ^ 2))⁻¹, (√(1 / b ^ 2))⁻¹]
  | some c => [(√(1 / a ^ 2))⁻¹, (√(1 / b ^ 2))⁻¹, (√(1 / c ^ 2))⁻¹]

/-- `np.dot` of a diagonal matrix and a vector: ValueError if the shapes do not fit. -/
noncomputable def dotDiag (m z : List ℝ) : Option (List ℝ) :=
  if m.length = z.length then some (List.zipWith (· * ·) m z) else none

/-- `drawUniformFromEllipsoid(dims, a, b, c, Nptc, ell_nb)`, python_routines.py:367-390. -/
noncomputable def drawEllipsoid (dims : Nat) (a b : List ℝ) (c : CArg) (N : List ℤ) (k : Nat) (draws : Nat → Normal) :
    Option (List (List ℝ)) := do
  let av ← a[k]?
  let bv ← b[k]?
  let cs ← c
  let cv ← cs[k]?
  let n ← N[k]?
  if n < 0 then none
  else (List.range n.toNat).mapM fun i => dotDiag (stretches av bv cv) (inBall dims (draws i))

/-- `Y` for one row of `X`: without a third column `xyz[:,2]` raises an IndexError, python_routines.py:479-495. -/
noncomputable def moveToShell (s : Axes) (rand : ℝ) : List ℝ → Option (List ℝ)
  | x :: y :: z :: _ => let p := place s ⟨x, y, z, rand⟩; some [p.1, p.2.1, p.2.2]
  | _ => none

/-- `drawUniformFromShell(dims, a, b, c, Nptc, shell_nb)`, python_routines.py:446-497.  `interp1d` raises unless there are as many values
as there are shells; for `c = None` (one value) it may not, but then `c[shell_nb]` does.  The column `xyz[:,2]` is looked up even if there
are no points.  Simplified: in three dimensions a `None` in `c` for another shell gives NaN coordinates near that shell; here it is an
error. -/
noncomputable def drawShell (dims : Nat) (a b : List ℝ) (c : CArg) (N : List ℤ) (k : Nat) (draws : Nat → Normal) (rand : Nat → ℝ) :
    Option (List (List ℝ)) := do
  let av ← a[k]?
  let cs ← c
  if b.length ≠ a.length ∨ cs.length ≠ a.length then none
  let cv ← cs[k]?
  let n ← N[k]?
  if n < 0 then none
  else
    let X ← (List.range n.toNat).mapM fun i => dotDiag (stretches av av (cv.map fun _ => av)) (inBall dims (draws i))
    if dims < 3 then none
    else
      let cs ← cs.mapM id
      (X.zipIdx).mapM fun xi => moveToShell ⟨a, b, cs⟩ (rand xi.2) xi.1

/-! ## Specification -/

/-- Each draw has as many components as there are dimensions, is not the zero vector, and its uniform number is in [0,1]. -/
def Draws (dims : Nat) (draws : Nat → Normal) : Prop :=
  ∀ i, (draws i).g.length = dims ∧ (∃ x ∈ (draws i).g, x ≠ 0) ∧ 0 ≤ (draws i).w ∧ (draws i).w ≤ 1

/-- The place is in the ellipse, or ellipsoid, with the given semi-axes. -/
noncomputable def InEllipsoid (axes x : List ℝ) : Prop :=
  x.length = axes.length ∧ (List.zipWith (fun x a => (x / a) ^ 2) x axes).sum ≤ 1

/-- The probability that the point drawn from an ellipse is within the ellipse smaller by the factor `t`, for a given normal vector: the
measure of the random numbers between 0 and 1 for which this is the case. -/
noncomputable def chanceInEllipse (a b : ℝ) (g : List ℝ) (t : ℝ) : ℝ :=
  (volume {w : ℝ | 0 ≤ w ∧ w < 1 ∧ ∃ x, drawEllipsoid 2 [a] [b] (some [none]) [1] 0 (fun _ => ⟨g, w⟩) = some [x] ∧
    InEllipsoid [t * a, t * b] x}).toReal

/-! ## Proofs -/

theorem stretch (x : ℝ) (hx : 0 < x) : (√(1 / x ^ 2))⁻¹ = x := by
  rw [Real.sqrt_div zero_le_one, Real.sqrt_one, Real.sqrt_sq hx.le, one_div, inv_inv]

theorem root_sq {w : ℝ} (h0 : 0 ≤ w) (h1 : w ≤ 1) (dims : Nat) : (w ^ ((1 : ℝ) / dims)) ^ 2 ≤ 1 :=
  pow_le_one₀ (Real.rpow_nonneg h0 _) (Real.rpow_le_one h0 h1 (by positivity))

theorem mapM_all {α β : Type} (f : α → Option β) (P : β → Prop) (l : List α) (h : ∀ x ∈ l, ∃ y, f x = some y ∧ P y) :
    ∃ r, l.mapM f = some r ∧ r.length = l.length ∧ ∀ y ∈ r, P y := by
  induction l with
  | nil => exact ⟨[], rfl, rfl, fun y hy => by cases hy⟩
  | cons a l ih =>
    obtain ⟨y, hy, hP⟩ := h a List.mem_cons_self
    obtain ⟨r, hr, hl, hr'⟩ := ih fun x hx => h x (List.mem_cons_of_mem _ hx)
    refine ⟨y :: r, ?_, by simp [hl], ?_⟩
    · rw [List.mapM_cons, hy, Option.bind_eq_bind, Option.bind_some, hr]; rfl
    · intro z hz
      rcases List.mem_cons.1 hz with rfl | hz
      · exact hP
      · exact hr' z hz

theorem sum_sq_pos (l : List ℝ) (h : ∃ x ∈ l, x ≠ 0) : 0 < (l.map (· ^ 2)).sum := by
  obtain ⟨x, hx, h0⟩ := h
  induction l with
  | nil => cases hx
  | cons a l ih =>
    rw [List.map_cons, List.sum_cons]
    have hs : 0 ≤ (l.map (· ^ 2)).sum := List.sum_nonneg fun y hy => by
      obtain ⟨z, -, rfl⟩ := List.mem_map.1 hy
      positivity
    rcases List.mem_cons.1 hx with rfl | hx
    · have := pow_pos (abs_pos.2 h0) 2
      rw [sq_abs] at this
      show 0 < x ^ 2 + _
      linarith
    · have := ih hx
      show 0 < a ^ 2 + _
      nlinarith [sq_nonneg a]

/-- A stretched point of the unit ball is in the ellipsoid. -/
theorem stretched_inside (axes : List ℝ) (hpos : ∀ a ∈ axes, 0 < a) (g : List ℝ) (hl : g.length = axes.length) (R n : ℝ) :
    (List.zipWith (fun x a => (x / a) ^ 2) (List.zipWith (· * ·) axes (g.map fun x => R * x / n)) axes).sum =
      R ^ 2 / n ^ 2 * (g.map (· ^ 2)).sum := by
  induction axes generalizing g with
  | nil => obtain rfl := List.length_eq_zero_iff.1 hl; simp
  | cons a axes ih =>
    cases g with
    | nil => simp at hl
    | cons x g =>
      have ha := hpos a List.mem_cons_self
      have := ih (fun b hb => hpos b (List.mem_cons_of_mem _ hb)) g (by simpa using hl)
      simp only [List.map_cons, List.zipWith_cons_cons, List.sum_cons, this]
      rw [mul_div_cancel_left₀ _ ha.ne']
      ring

/-- C168 (proved part): with `None` as entry of `c` in two dimensions, and a number in three, `drawUniformFromEllipsoid` returns the number
of points asked for, all of them with the right number of coordinates, in the ellipse or ellipsoid. Missing: `c = None` and shells, where two
dimensions are not possible. -/
theorem C168_ellipsoid_partial (a b : List ℝ) (cs : List (Option ℝ)) (N : List ℤ) (k : Nat) (av bv : ℝ) (cv : Option ℝ) (n : ℕ)
    (ha : a[k]? = some av) (hb : b[k]? = some bv) (hc : cs[k]? = some cv) (hN : N[k]? = some (n : ℤ)) (ha0 : 0 < av) (hb0 : 0 < bv)
    (hc0 : ∀ c, cv = some c → 0 < c) (dims : Nat) (hdims : dims = if cv = none then 2 else 3) (draws : Nat → Normal) (hd : Draws dims draws) :
    ∃ pts, drawEllipsoid dims a b (some cs) N k draws = some pts ∧ pts.length = n ∧
      ∀ x ∈ pts, InEllipsoid ([av, bv] ++ cv.toList) x := by
  unfold drawEllipsoid
  simp only [ha, hb, hc, hN, Option.bind_eq_bind, Option.bind_some]
  rw [if_neg (by omega), Int.toNat_natCast]
  have hst : stretches av bv cv = [av, bv] ++ cv.toList := by
    cases cv with
    | none => simp only [stretches, stretch av ha0, stretch bv hb0]; rfl
    | some c => simp only [stretches, stretch av ha0, stretch bv hb0, stretch c (hc0 c rfl)]; rfl
  have hlen : ([av, bv] ++ cv.toList).length = dims := by
    rw [hdims]
    cases cv <;> simp
  have hpos : ∀ x ∈ [av, bv] ++ cv.toList, 0 < x := by
    intro x hx
    simp only [List.cons_append, List.nil_append, List.mem_cons, Option.mem_toList, Option.mem_def] at hx
    rcases hx with rfl | rfl | hx
    · exact ha0
    · exact hb0
    · exact hc0 x hx
  obtain ⟨r, hr, hl, hP⟩ := mapM_all (fun i => dotDiag (stretches av bv cv) (inBall dims (draws i)))
    (InEllipsoid ([av, bv] ++ cv.toList)) (List.range n) (by
      intro i _
      obtain ⟨h1, h2, h3, h4⟩ := hd i
      have hz : (inBall dims (draws i)).length = dims := by unfold inBall; rw [List.length_map, h1]
      refine ⟨_, by unfold dotDiag; rw [hst, if_pos (by rw [hlen, hz])], ?_, ?_⟩
      · rw [List.length_zipWith, hlen, hz, min_self]
      · unfold inBall
        rw [stretched_inside _ hpos _ (by rw [hlen, h1])]
        have hs := sum_sq_pos _ h2
        rw [Real.sq_sqrt hs.le, div_mul_cancel₀ _ hs.ne']
        exact root_sq h3 h4 dims)
  exact ⟨r, hr, by rw [hl, List.length_range], hP⟩

/-- C168: points drawn from an ellipse are uniform in area: the chance to be within the ellipse smaller by the factor `t` is `t ^ 2`. -/
theorem C168_area (a b : ℝ) (ha : 0 < a) (hb : 0 < b) (g h : ℝ) (hg : g ≠ 0 ∨ h ≠ 0) (t : ℝ) (ht : 0 < t) (ht1 : t ≤ 1) :
    chanceInEllipse a b [g, h] t = t ^ 2 := by
  have hn : 0 < g ^ 2 + h ^ 2 := by
    rcases hg with h0 | h0
    · have := pow_pos (abs_pos.2 h0) 2
      rw [sq_abs] at this
      nlinarith [sq_nonneg h]
    · have := pow_pos (abs_pos.2 h0) 2
      rw [sq_abs] at this
      nlinarith [sq_nonneg g]
  have hdraw : ∀ w, drawEllipsoid 2 [a] [b] (some [none]) [1] 0 (fun _ => ⟨[g, h], w⟩) =
      some [[a * (w ^ ((1 : ℝ) / 2) * g / √(g ^ 2 + h ^ 2)), b * (w ^ ((1 : ℝ) / 2) * h / √(g ^ 2 + h ^ 2))]] := by
    intro w
    have e1 : [a][0]? = some a := rfl
    have e2 : [b][0]? = some b := rfl
    have e3 : [(none : Option ℝ)][0]? = some none := rfl
    have e4 : [(1 : ℤ)][0]? = some 1 := rfl
    unfold drawEllipsoid
    simp only [e1, e2, e3, e4, Option.bind_eq_bind, Option.bind_some]
    rw [if_neg (by norm_num)]
    have e5 : List.range (1 : ℤ).toNat = [0] := rfl
    rw [e5, List.mapM_cons, List.mapM_nil]
    simp only [dotDiag, stretches, inBall, List.map_cons, List.map_nil, List.length_cons, List.length_nil, if_true,
      Option.bind_eq_bind, Option.bind_some, List.zipWith_cons_cons, List.zipWith_nil_left, List.sum_cons, List.sum_nil,
      add_zero, Nat.cast_ofNat, stretch a ha, stretch b hb]
    rfl
  have hset : {w : ℝ | 0 ≤ w ∧ w < 1 ∧ ∃ x, drawEllipsoid 2 [a] [b] (some [none]) [1] 0 (fun _ => ⟨[g, h], w⟩) = some [x] ∧
      InEllipsoid [t * a, t * b] x} = {w : ℝ | 0 ≤ w ∧ w < 1 ∧ w ≤ t ^ 2} := by
    ext w
    simp only [Set.mem_ofPred_eq]
    refine and_congr_right fun h0 => and_congr_right fun h1 => ?_
    have hw2 : (w ^ ((1 : ℝ) / 2)) ^ 2 = w := by
      rw [← Real.rpow_natCast, ← Real.rpow_mul h0]
      norm_num
    have key : (a * (w ^ ((1 : ℝ) / 2) * g / √(g ^ 2 + h ^ 2)) / (t * a)) ^ 2 +
        (b * (w ^ ((1 : ℝ) / 2) * h / √(g ^ 2 + h ^ 2)) / (t * b)) ^ 2 = w / t ^ 2 := by
      have hs := Real.sq_sqrt hn.le
      have hs0 := Real.sqrt_pos.2 hn
      generalize √(g ^ 2 + h ^ 2) = n at hs hs0
      generalize w ^ ((1 : ℝ) / 2) = r at hw2
      rw [mul_comm t a, mul_comm t b, mul_div_mul_left _ _ ha.ne', mul_div_mul_left _ _ hb.ne', ← hw2]
      field_simp
      rw [hs]
    rw [hdraw]
    constructor
    · rintro ⟨x, hx, -, hi⟩
      simp only [Option.some.injEq, List.cons.injEq, and_true] at hx
      subst hx
      simp only [List.zipWith_cons_cons, List.zipWith_nil_left, List.sum_cons, List.sum_nil, add_zero] at hi
      rwa [key, div_le_one (pow_pos ht 2)] at hi
    · intro hi
      refine ⟨_, rfl, rfl, ?_⟩
      simp only [List.zipWith_cons_cons, List.zipWith_nil_left, List.sum_cons, List.sum_nil, add_zero]
      rwa [key, div_le_one (pow_pos ht 2)]
  have ht2 : t ^ 2 ≤ 1 := pow_le_one₀ ht.le ht1
  unfold chanceInEllipse
  rw [hset]
  rcases eq_or_lt_of_le ht1 with rfl | ht1
  · have : {w : ℝ | 0 ≤ w ∧ w < 1 ∧ w ≤ 1 ^ 2} = Set.Ico 0 1 := by
      ext w
      simp only [Set.mem_ofPred_eq, Set.mem_Ico, one_pow]
      constructor
      · rintro ⟨h0, h1, -⟩; exact ⟨h0, h1⟩
      · rintro ⟨h0, h1⟩; exact ⟨h0, h1, h1.le⟩
    rw [this, Real.volume_Ico]
    norm_num
  · have hlt : t ^ 2 < 1 := by nlinarith
    have : {w : ℝ | 0 ≤ w ∧ w < 1 ∧ w ≤ t ^ 2} = Set.Icc 0 (t ^ 2) := by
      ext w
      simp only [Set.mem_ofPred_eq, Set.mem_Icc]
      constructor
      · rintro ⟨h0, -, h1⟩; exact ⟨h0, h1⟩
      · rintro ⟨h0, h1⟩; exact ⟨h0, lt_of_le_of_lt h1 hlt, h1⟩
    rw [this, Real.volume_Icc, sub_zero, ENNReal.toReal_ofReal (by positivity)]

/-- A quarter of the points of an ellipse is in its inner half. -/
example : chanceInEllipse 2 1 [1, 3] (1 / 2) = 1 / 4 := by
  rw [C168_area 2 1 (by norm_num) (by norm_num) 1 3 (Or.inl one_ne_zero) _ (by norm_num) (by norm_num)]
  norm_num

/-- In three dimensions the points are those of `ellipsoidPoint`, for which uniformity is shown in `C163_ellipsoid`. -/
theorem C168_three (a b : List ℝ) (cs : List (Option ℝ)) (N : List ℤ) (k : Nat) (av bv cv : ℝ) (n : ℕ)
    (ha : a[k]? = some av) (hb : b[k]? = some bv) (hc : cs[k]? = some (some cv)) (hN : N[k]? = some (n : ℤ)) (g : Nat → ℝ × ℝ × ℝ) (w : Nat → ℝ) :
    drawEllipsoid 3 a b (some cs) N k (fun i => ⟨[(g i).1, (g i).2.1, (g i).2.2], w i⟩) =
      some ((List.range n).map fun i => let p := ellipsoidPoint av bv cv (g i) (w i); [p.1, p.2.1, p.2.2]) := by
  unfold drawEllipsoid
  simp only [ha, hb, hc, hN, Option.bind_eq_bind, Option.bind_some]
  rw [if_neg (by omega), Int.toNat_natCast]
  generalize List.range n = l
  induction l with
  | nil => rfl
  | cons i l ih =>
    rw [List.mapM_cons, ih]
    simp only [dotDiag, stretches, inBall, List.map_cons, List.map_nil, List.length_cons, List.length_nil, if_true,
      Option.bind_eq_bind, Option.bind_some, List.zipWith_cons_cons, List.zipWith_nil_left, ellipsoidPoint, List.sum_cons, List.sum_nil,
      add_zero, Nat.cast_ofNat]
    rw [add_assoc]
    rfl

theorem mapM_some_id (l : List ℝ) : (l.map some).mapM (id : Option ℝ → Option ℝ) = some l := by
  induction l with
  | nil => rfl
  | cons x l ih => rw [List.map_cons, List.mapM_cons, ih]; rfl

theorem move_all (s : Axes) (rand : Nat → ℝ) (f : Nat → ℝ × ℝ × ℝ) (l : List Nat) (m : Nat) (h : ∀ j (hj : j < l.length), l[j] = m + j) :
    ((l.map fun i => [(f i).1, (f i).2.1, (f i).2.2]).zipIdx m).mapM (fun xi => moveToShell s (rand xi.2) xi.1) =
      some (l.map fun i => let p := place s ⟨(f i).1, (f i).2.1, (f i).2.2, rand i⟩; [p.1, p.2.1, p.2.2]) := by
  induction l generalizing m with
  | nil => rfl
  | cons i l ih =>
    have hi : i = m := h 0 (Nat.succ_pos _)
    rw [List.map_cons, List.zipIdx_cons, List.mapM_cons, ih (m + 1) fun j hj => by
      have := h (j + 1) (by simpa using hj)
      rw [List.getElem_cons_succ] at this
      omega]
    subst hi
    rfl

/-- In three dimensions points of shells are those of `place`, which are in the shell (C93, C163): the points drawn from the ball with the
major semi-axis give the directions. -/
theorem C168_shell_three (a b cs : List ℝ) (N : List ℤ) (k : Nat) (av : ℝ) (n : ℕ) (ha : a[k]? = some av)
    (hb : b.length = a.length) (hc : cs.length = a.length) (hN : N[k]? = some (n : ℤ)) (g : Nat → ℝ × ℝ × ℝ) (w rand : Nat → ℝ) :
    drawShell 3 a b (some (cs.map some)) N k (fun i => ⟨[(g i).1, (g i).2.1, (g i).2.2], w i⟩) rand =
      some ((List.range n).map fun i =>
        let d := ellipsoidPoint av av av (g i) (w i)
        let p := place ⟨a, b, cs⟩ ⟨d.1, d.2.1, d.2.2, rand i⟩
        [p.1, p.2.1, p.2.2]) := by
  have hk : k < cs.length := by
    rw [hc]
    exact (List.getElem?_eq_some_iff.1 ha).1
  have hX := C168_three a a (a.map some) N k av av av n ha ha (by rw [List.getElem?_map, ha]; rfl) hN g w
  unfold drawEllipsoid at hX
  simp only [ha, hN, List.getElem?_map, Option.map_some, Option.bind_eq_bind, Option.bind_some] at hX
  rw [if_neg (by omega)] at hX
  unfold drawShell
  have hne : ¬ (b.length ≠ a.length ∨ (cs.map some).length ≠ a.length) := by simp [hb, hc]
  simp only [ha, hN, if_neg hne, List.getElem?_map, List.getElem?_eq_getElem hk, Option.map_some, Option.bind_eq_bind, Option.bind_some, pure_bind]
  rw [if_neg (by omega), hX, Option.bind_some, if_neg (by norm_num), mapM_some_id, Option.bind_some]
  exact move_all ⟨a, b, cs⟩ rand (fun i => ellipsoidPoint av av av (g i) (w i)) (List.range n) 0 fun j hj => by simp

/-- C168 (refutation): with `c` left at `None`, as documented for two dimensions, nothing is ever drawn from an ellipsoid. -/
theorem C168_none_refuted (dims : Nat) (a b : List ℝ) (N : List ℤ) (k : Nat) (draws : Nat → Normal) :
    drawEllipsoid dims a b none N k draws = none := by
  unfold drawEllipsoid
  cases a[k]? with
  | none => rfl
  | some av =>
    cases b[k]? with
    | none => rfl
    | some bv => rfl

/-- C168 (refutation): nothing is ever drawn from a shell in two dimensions, whatever `c` is. -/
theorem C168_shell_refuted (a b : List ℝ) (c : CArg) (N : List ℤ) (k : Nat) (draws : Nat → Normal) (rand : Nat → ℝ) :
    drawShell 2 a b c N k draws rand = none := by
  unfold drawShell
  have hd : (2 : Nat) < 3 := by norm_num
  simp only [if_pos hd, Option.bind_eq_bind, Option.bind_none, Option.bind_eq_none_iff, ite_self, implies_true]
  intros
  split <;> simp [Option.bind_eq_none_iff]

/-- An ellipse with semi-axes 2 and 1, two points. -/
example : ∃ pts, drawEllipsoid 2 [2] [1] (some [none]) [2] 0 (fun _ => ⟨[1, 1], 1 / 4⟩) = some pts ∧ pts.length = 2 ∧
    ∀ x ∈ pts, InEllipsoid [2, 1] x :=
  C168_ellipsoid_partial [2] [1] [none] [2] 0 2 1 none 2 rfl rfl rfl rfl (by norm_num) (by norm_num) (fun c h => by cases h) 2 rfl _
    (fun _ => ⟨rfl, ⟨1, by simp, one_ne_zero⟩, by norm_num, by norm_num⟩)

end Verif.Mock
