import Verif.Shapes.Stratified
import Verif.Shapes.Objects

/-!
# Which particles make up a shell (C166)

The shell-based algorithms, cosmic_profiles/shape_profs/shape_profs_algos.pyx:16-143 and 386-514, and the radii and thicknesses
given to them (1034-1044).
-/

namespace Verif.Shapes

/-! ## Specification -/

/-- Distance of two places. -/
noncomputable def apart (x y : Vec ℝ) : ℝ := √((x 0 - y 0) ^ 2 + (x 1 - y 1) ^ 2 + (x 2 - y 2) ^ 2)

/-- Semi-major axis of the ellipsoid of the shape of `e` about the centre which goes through the place `x`. -/
noncomputable def radiusAt (cfg : Config) (e : Ellipsoid) (x : Vec ℝ) : ℝ :=
  √(ellipsoidal2 e.major e.inter e.minor e.q e.s fun i => x i - cfg.center i)

/-- Three orthonormal axes, the second and third shortened. -/
structure Proper (e : Ellipsoid) : Prop where
  axes : Orthonormal e.major e.inter e.minor
  pos : 0 < e.s
  order : e.s ≤ e.q
  one : e.q ≤ 1

/-! ## Proofs -/

theorem radiusAt_lt (cfg : Config) (e : Ellipsoid) (x : Vec ℝ) {d : ℝ} (hd : 0 < d) :
    radiusAt cfg e x < d ↔ ellipsoidal2 e.major e.inter e.minor e.q e.s (fun i => x i - cfg.center i) < d ^ 2 :=
  Real.sqrt_lt' hd

theorem le_radiusAt (cfg : Config) (e : Ellipsoid) (x : Vec ℝ) {d : ℝ} (hd : 0 < d) :
    d ≤ radiusAt cfg e x ↔ d ^ 2 ≤ ellipsoidal2 e.major e.inter e.minor e.q e.s (fun i => x i - cfg.center i) :=
  Real.le_sqrt' hd

/-- The place reached from the centre by going `u`, `v`, `w` along the axes. -/
def along (e : Ellipsoid) (u v w : ℝ) : Vec ℝ := fun i => u * e.major i + v * e.inter i + w * e.minor i

theorem dot_along (e : Ellipsoid) (h : Orthonormal e.major e.inter e.minor) (y : Vec ℝ) (u v w : ℝ) :
    dot e.major (fun i => y i + along e u v w i) = dot e.major y + u ∧
    dot e.inter (fun i => y i + along e u v w i) = dot e.inter y + v ∧
    dot e.minor (fun i => y i + along e u v w i) = dot e.minor y + w := by
  obtain ⟨h1, h2, h3, h4, h5, h6⟩ := h
  unfold dot along at *
  refine ⟨?_, ?_, ?_⟩
  · linear_combination u * h1 + v * h4 + w * h5
  · linear_combination u * h4 + v * h2 + w * h6
  · linear_combination u * h5 + v * h6 + w * h3

theorem along_length (e : Ellipsoid) (h : Orthonormal e.major e.inter e.minor) (u v w : ℝ) :
    along e u v w 0 ^ 2 + along e u v w 1 ^ 2 + along e u v w 2 ^ 2 = u ^ 2 + v ^ 2 + w ^ 2 := by
  obtain ⟨h1, h2, h3, h4, h5, h6⟩ := h
  unfold dot along at *
  linear_combination u ^ 2 * h1 + v ^ 2 * h2 + w ^ 2 * h3 + 2 * u * v * h4 + 2 * u * w * h5 + 2 * v * w * h6

/-- Outside of an ellipsoid with semi-axes shorter by `δ`, the surface of the ellipsoid is no farther than `δ`. -/
theorem surface_near {d q s δ u v w : ℝ} (hδ : 0 < δ) (h1 : δ < d) (hq : 0 < q) (hs : 0 < s) (h2 : δ < q * d) (h3 : δ < s * d)
    (h : 1 ≤ u ^ 2 / (d - δ) ^ 2 + v ^ 2 / (q * d - δ) ^ 2 + w ^ 2 / (s * d - δ) ^ 2) :
    ∃ u' v' w' : ℝ, u' ^ 2 + v' ^ 2 + w' ^ 2 = δ ^ 2 ∧
      d ^ 2 ≤ (u + u') ^ 2 + (v + v') ^ 2 / q ^ 2 + (w + w') ^ 2 / s ^ 2 := by
  have hP : 0 < d - δ := by linarith
  have hQ : 0 < q * d - δ := by linarith
  have hR : 0 < s * d - δ := by linarith
  obtain ⟨a, rfl⟩ : ∃ a, u = (d - δ) * a := ⟨u / (d - δ), by field_simp⟩
  obtain ⟨b, rfl⟩ : ∃ b, v = (q * d - δ) * b := ⟨v / (q * d - δ), by field_simp⟩
  obtain ⟨c, rfl⟩ : ∃ c, w = (s * d - δ) * c := ⟨w / (s * d - δ), by field_simp⟩
  have e1 : ∀ P x : ℝ, 0 < P → (P * x) ^ 2 / P ^ 2 = x ^ 2 := by intro P x hP; field_simp
  rw [e1 _ _ hP, e1 _ _ hQ, e1 _ _ hR] at h
  set n := √(a ^ 2 + b ^ 2 + c ^ 2) with hn
  have hn2 : n ^ 2 = a ^ 2 + b ^ 2 + c ^ 2 := Real.sq_sqrt (by positivity)
  have hn1 : 1 ≤ n := by rw [hn]; exact Real.one_le_sqrt.2 h
  have hn0 : 0 < n := by linarith
  refine ⟨δ * a / n, δ * b / n, δ * c / n, ?_, ?_⟩
  · have : (δ * a / n) ^ 2 + (δ * b / n) ^ 2 + (δ * c / n) ^ 2 = δ ^ 2 * (a ^ 2 + b ^ 2 + c ^ 2) / n ^ 2 := by ring
    rw [this, ← hn2]
    field_simp
  · have key : ∀ k x : ℝ, 0 < k → δ < k * d → x ^ 2 * (d / n) ^ 2 ≤ ((k * d - δ) * x + δ * x / n) ^ 2 / k ^ 2 := by
      intro k x hk hkd
      have e2 : ((k * d - δ) * x + δ * x / n) ^ 2 / k ^ 2 = x ^ 2 * (((k * d - δ) + δ / n) / k) ^ 2 := by ring
      rw [e2]
      refine mul_le_mul_of_nonneg_left ?_ (sq_nonneg x)
      refine pow_le_pow_left₀ (by have := hδ.trans h1; positivity) ?_ 2
      rw [div_le_div_iff₀ hn0 hk]
      have e3 : (k * d - δ + δ / n) * n = (k * d - δ) * n + δ := by field_simp
      rw [e3]
      nlinarith
    have k1 := key 1 a one_pos (by linarith)
    rw [one_mul, one_pow, div_one] at k1
    have k2 := key q b hq h2
    have k3 := key s c hs h3
    have e4 : a ^ 2 * (d / n) ^ 2 + b ^ 2 * (d / n) ^ 2 + c ^ 2 * (d / n) ^ 2 = d ^ 2 := by
      have : a ^ 2 * (d / n) ^ 2 + b ^ 2 * (d / n) ^ 2 + c ^ 2 * (d / n) ^ 2 = (a ^ 2 + b ^ 2 + c ^ 2) * d ^ 2 / n ^ 2 := by ring
      rw [this, ← hn2]
      field_simp
    linarith

/-- Outside of the similar ellipsoid of radius `d - δ` means outside of the one with semi-axes shorter by `δ`. -/
theorem outside_inner {d q s δ u v w : ℝ} (hδ : 0 < δ) (h1 : δ < d) (hq1 : q ≤ 1) (hs1 : s ≤ 1) (hq : 0 < q) (hs : 0 < s)
    (h2 : δ < q * d) (h3 : δ < s * d) (h : (d - δ) ^ 2 ≤ u ^ 2 + v ^ 2 / q ^ 2 + w ^ 2 / s ^ 2) :
    1 ≤ u ^ 2 / (d - δ) ^ 2 + v ^ 2 / (q * d - δ) ^ 2 + w ^ 2 / (s * d - δ) ^ 2 := by
  have hP : 0 < d - δ := by linarith
  have key : ∀ k x : ℝ, 0 < k → k ≤ 1 → δ < k * d → x ^ 2 / k ^ 2 / (d - δ) ^ 2 ≤ x ^ 2 / (k * d - δ) ^ 2 := by
    intro k x hk hk1 hkd
    rw [div_div, ← mul_pow]
    refine div_le_div_of_nonneg_left (sq_nonneg x) (by have : 0 < k * d - δ := by linarith
                                                       positivity) ?_
    refine pow_le_pow_left₀ (by linarith) ?_ 2
    nlinarith
  have k2 := key q v hq hq1 h2
  have k3 := key s w hs hs1 h3
  have : 1 ≤ (u ^ 2 + v ^ 2 / q ^ 2 + w ^ 2 / s ^ 2) / (d - δ) ^ 2 := by rwa [one_le_div (by positivity)]
  rw [add_div, add_div] at this
  linarith

open Classical in
theorem mem_members {cfg : Config} {e : Ellipsoid} {p : Pt} :
    p ∈ members cfg e ↔ p ∈ cfg.pts ∧ Inside cfg e.major e.inter e.minor e.q e.s p := by
  unfold members
  rw [List.mem_filter, decide_eq_true_iff]

/-! ## Properties -/

variable {cfg : Config} {e : Ellipsoid}

/-- C166 (proved part). The shell of semi-major axis `d` and thickness `δ`, for a thickness smaller than the shortest semi-axis:
all its particles are inside the ellipsoid, nowhere deeper below its surface than `δ`, and every particle between the ellipsoids
of semi-major axes `d - δ` and `d` belongs to it.  Missing: thick shells, for which this is false (`C166_hole_refuted`). -/
theorem C166_shell_partial (he : Proper e) {δ : ℝ} (hsh : cfg.deltaD = some δ) (hδ : 0 < δ) (hthin : δ < e.s * cfg.d)
    (hd : 0 < cfg.d) :
    (∀ p ∈ members cfg e, radiusAt cfg e p.x < cfg.d ∧ ∃ z, apart z p.x ≤ δ ∧ cfg.d ≤ radiusAt cfg e z) ∧
    ∀ p ∈ cfg.pts, cfg.d - δ ≤ radiusAt cfg e p.x → radiusAt cfg e p.x < cfg.d → p ∈ members cfg e := by
  have hq0 : 0 < e.q := he.pos.trans_le he.order
  have h2 : δ < e.q * cfg.d := hthin.trans_le (mul_le_mul_of_nonneg_right he.order hd.le)
  have h1 : δ < cfg.d := h2.trans_le (by nlinarith [he.one])
  constructor
  · intro p hp
    obtain ⟨-, hin, hinner⟩ := mem_members.1 hp
    refine ⟨(radiusAt_lt cfg e p.x hd).2 hin, ?_⟩
    obtain ⟨u, v, w, hn, hout⟩ := surface_near hδ h1 hq0 he.pos h2 hthin (hinner δ hsh h1.ne')
    refine ⟨fun i => p.x i + along e u v w i, ?_, ?_⟩
    · unfold apart
      rw [show (p.x 0 + along e u v w 0 - p.x 0) ^ 2 + (p.x 1 + along e u v w 1 - p.x 1) ^ 2 +
        (p.x 2 + along e u v w 2 - p.x 2) ^ 2 =
        along e u v w 0 ^ 2 + along e u v w 1 ^ 2 + along e u v w 2 ^ 2 by ring, along_length e he.axes, hn]
      exact le_of_eq (Real.sqrt_sq hδ.le)
    · rw [le_radiusAt _ _ _ hd]
      have e1 : (fun i => p.x i + along e u v w i - cfg.center i) = fun i => rel cfg p i + along e u v w i := by
        funext i
        unfold rel
        ring
      unfold ellipsoidal2
      rw [e1, (dot_along e he.axes _ u v w).1, (dot_along e he.axes _ u v w).2.1, (dot_along e he.axes _ u v w).2.2]
      exact hout
  · intro p hp hlo hhi
    refine mem_members.2 ⟨hp, (radiusAt_lt cfg e p.x hd).1 hhi, ?_⟩
    intro δ' hδ' _
    obtain rfl : δ = δ' := Option.some.inj (hsh.symm.trans hδ')
    exact outside_inner hδ h1 he.one (he.order.trans he.one) hq0 he.pos h2 hthin
      ((le_radiusAt cfg e p.x (by linarith)).1 hlo)

/-- The innermost shell is the ellipsoid. -/
theorem members_first (hd : 0 < cfg.d) (hsh : cfg.deltaD = some cfg.d) (p : Pt) :
    p ∈ members cfg e ↔ p ∈ cfg.pts ∧ radiusAt cfg e p.x < cfg.d := by
  rw [mem_members, radiusAt_lt _ _ _ hd]
  refine and_congr_right fun _ => ⟨fun h => h.1, fun h => ⟨h, fun δ hδ hne => ?_⟩⟩
  rw [hsh] at hδ
  exact absurd (Option.some.inj hδ) hne

/-- The arguments of the shell number `k` of an object. -/
noncomputable def shellNo (st : Settings) (pts : List Pt) (center srcCenter : Vec ℝ) (r200 : ℝ) (k : Nat) : Config :=
  st.config pts center srcCenter (shellAt st r200 k).1 (shellAt st r200 k).2

/-- C166 (proved part). The shells of an object cover it: for increasing radii, no two consecutive ones too far apart, every particle
within the ellipsoid of the last radius belongs to one of the shells of the same shape.  Missing: radii which are far apart
(`C166_hole_refuted`). -/
theorem C166_cover_partial (st : Settings) (hsb : st.shellBased = true) (pts : List Pt) (center srcCenter : Vec ℝ) (r200 : ℝ)
    (hr : 0 < r200) (he : Proper e) (r : ℝ) (rs : List ℝ) (hrad : st.radii = r :: rs) (hr0 : 0 < r)
    (hinc : ∀ (k : Nat) (x y : ℝ), st.radii[k]? = some x → st.radii[k + 1]? = some y → x < y ∧ y - x < e.s * y)
    (p : Pt) (hp : p ∈ pts)
    (hlast : radiusAt (shellNo st pts center srcCenter r200 0) e p.x < r200 * (st.radii.getLast (by rw [hrad]; simp))) :
    ∃ k < st.radii.length, p ∈ members (shellNo st pts center srcCenter r200 k) e := by
  classical
  have hpos : ∀ (k : Nat) (x : ℝ), st.radii[k]? = some x → 0 < x := by
    intro k
    induction k with
    | zero => intro x hx; rw [hrad] at hx; obtain rfl : r = x := by simpa using hx
              exact hr0
    | succ k ih =>
      intro x hx
      obtain ⟨hk, -⟩ := List.getElem?_eq_some_iff.1 hx
      have hy : st.radii[k]? = some st.radii[k] := List.getElem?_eq_getElem (by omega)
      exact (ih _ hy).trans (hinc k _ _ hy hx).1
  have hrat : ∀ k, radiusAt (shellNo st pts center srcCenter r200 k) e p.x =
      radiusAt (shellNo st pts center srcCenter r200 0) e p.x := fun k => rfl
  have hlen : 0 < st.radii.length := by rw [hrad]; simp
  have hex : ∃ k, k < st.radii.length ∧
      radiusAt (shellNo st pts center srcCenter r200 0) e p.x < r200 * (st.radii[k]?.getD 0) := by
    refine ⟨st.radii.length - 1, by omega, ?_⟩
    rw [List.getElem?_eq_getElem (by omega), Option.getD_some, ← List.getLast_eq_getElem]
    exact hlast
  obtain ⟨hk, hlt⟩ := Nat.find_spec hex
  have hmin := fun m (h : m < Nat.find hex) => Nat.find_min hex h
  generalize Nat.find hex = k at hk hlt hmin
  refine ⟨k, hk, ?_⟩
  have hx : st.radii[k]? = some st.radii[k] := List.getElem?_eq_getElem hk
  have hd1 : (shellNo st pts center srcCenter r200 k).d = r200 * st.radii[k] := by
    show r200 * (st.radii[k]?.getD 0) = _
    rw [hx, Option.getD_some]
  have hd0 : 0 < (shellNo st pts center srcCenter r200 k).d := by
    rw [hd1]; exact mul_pos hr (hpos k _ hx)
  rw [hx, Option.getD_some, ← hrat k, ← hd1] at hlt
  rcases Nat.eq_zero_or_pos k with h0 | h0
  · refine (members_first hd0 ?_ p).2 ⟨hp, hlt⟩
    subst h0
    show (shellAt st r200 0).2 = some (shellAt st r200 0).1
    unfold shellAt
    simp [hsb]
  · obtain ⟨j, rfl⟩ : ∃ j, k = j + 1 := ⟨k - 1, by omega⟩
    have hy : st.radii[j]? = some st.radii[j] := List.getElem?_eq_getElem (by omega)
    obtain ⟨hlt', hthin⟩ := hinc j _ _ hy hx
    have hδ : (shellNo st pts center srcCenter r200 (j + 1)).deltaD = some (r200 * st.radii[j + 1] - r200 * st.radii[j]) := by
      show (shellAt st r200 (j + 1)).2 = _
      unfold shellAt
      simp only [hsb, if_true, Nat.add_one_ne_zero, if_false, Nat.add_sub_cancel]
      rw [hx, hy]
      rfl
    refine (C166_shell_partial he hδ ?_ ?_ hd0).2 p hp ?_ hlt
    · rw [← mul_sub]; exact mul_pos hr (by linarith)
    · rw [hd1]
      nlinarith
    · rw [hd1, hrat]
      have : ¬ radiusAt (shellNo st pts center srcCenter r200 0) e p.x < r200 * (st.radii[j]?.getD 0) :=
        fun h => hmin j (by omega) ⟨by omega, h⟩
      rw [hy, Option.getD_some, not_lt] at this
      linarith

/-- C166: the innermost shell is treated as the ellipsoid of the same radius, in every respect. -/
theorem C166_innermost (fuel : Nat) (cfg : Config) (morph : Morph) (sc : Scratch) :
    runAlgo fuel { cfg with deltaD := some cfg.d } morph sc = runAlgo fuel { cfg with deltaD := none } morph sc := by
  have hinit : initialTest { cfg with deltaD := some cfg.d } = initialTest { cfg with deltaD := none } := by
    funext p
    unfold initialTest
    simp only
    refine decide_eq_decide.2 (and_iff_left ?_)
    rw [sub_self, zero_pow two_ne_zero]
    show (0 : ℝ) ≤ Binning.dist2 cfg.center p.x
    unfold Binning.dist2
    positivity
  have hlater : laterTest { cfg with deltaD := some cfg.d } = laterTest { cfg with deltaD := none } := by
    funext q s y
    unfold laterTest
    simp
  have hstart : start { cfg with deltaD := some cfg.d } morph sc = start { cfg with deltaD := none } morph sc := by
    unfold start
    simp only [hinit]
  have hiter : iterate { cfg with deltaD := some cfg.d } = iterate { cfg with deltaD := none } := by
    funext st
    unfold iterate
    simp only [hlater]
    rfl
  have hstep : loopStep { cfg with deltaD := some cfg.d } = loopStep { cfg with deltaD := none } := by
    funext st
    unfold loopStep
    simp only [hiter]
  unfold runAlgo
  rw [hstep, hstart]

/-! ## Thick shells -/

/-- Particles on the axes, seen by a shell of semi-major axis 10 and thickness 6: those at 9, 8 and 5 (mass 1/9) are in the spherical
shell the algorithm starts with, those at 3/2 on the third axis are not. -/
noncomputable def thickCfg (sol : Solver) : Config :=
  { pts := [⟨![9, 0, 0], ![9, 0, 0], 1⟩, ⟨![-9, 0, 0], ![-9, 0, 0], 1⟩, ⟨![0, 8, 0], ![0, 8, 0], 1⟩, ⟨![0, -8, 0], ![0, -8, 0], 1⟩,
      ⟨![0, 0, 5], ![0, 0, 5], 1 / 9⟩, ⟨![0, 0, -5], ![0, 0, -5], 1 / 9⟩, ⟨![0, 0, 3 / 2], ![0, 0, 3 / 2], 1⟩,
      ⟨![0, 0, -(3 / 2)], ![0, 0, -(3 / 2)], 1⟩],
    center := 0, srcCenter := 0, d := 10, deltaD := some 6, tol := 1 / 100, wall := 10, itMin := 4, reduced := false, solver := sol }

/-- The shape found by the first iteration. -/
noncomputable def thickShape : Ellipsoid := ⟨![1, 0, 0], ![0, 1, 0], ![0, 0, 1], 8 / 9, 5 / 27⟩

theorem thick_rel (sol : Solver) (p : Pt) : rel (thickCfg sol) p = p.x := by
  funext i; show p.x i - (0 : Vec ℝ) i = p.x i; simp

open Classical in
theorem thick_start (sol : Solver) : members (thickCfg sol) sphere =
    [⟨![9, 0, 0], ![9, 0, 0], 1⟩, ⟨![-9, 0, 0], ![-9, 0, 0], 1⟩, ⟨![0, 8, 0], ![0, 8, 0], 1⟩, ⟨![0, -8, 0], ![0, -8, 0], 1⟩,
      ⟨![0, 0, 5], ![0, 0, 5], 1 / 9⟩, ⟨![0, 0, -5], ![0, 0, -5], 1 / 9⟩] := by
  have hin : ∀ p : Pt, Inside (thickCfg sol) sphere.major sphere.inter sphere.minor sphere.q sphere.s p ↔
      p.x 0 ^ 2 + p.x 1 ^ 2 + p.x 2 ^ 2 < 100 ∧ 16 ≤ p.x 0 ^ 2 + p.x 1 ^ 2 + p.x 2 ^ 2 := by
    intro p
    unfold Inside ellipsoidal2
    rw [thick_rel]
    have hd : (thickCfg sol).d = 10 := rfl
    have hδ : (thickCfg sol).deltaD = some 6 := rfl
    rw [hd, hδ]
    simp only [sphere, dot, vec3_0, vec3_1, vec3_2]
    constructor
    · rintro ⟨h1, h2⟩
      have h2 := h2 _ rfl (by norm_num)
      norm_num at h1 h2
      constructor <;> linarith
    · rintro ⟨h1, h2⟩
      refine ⟨by norm_num; linarith, ?_⟩
      intro δ hδ' _
      obtain rfl := Option.some.inj hδ'
      norm_num
      linarith
  unfold members
  simp only [hin]
  simp only [thickCfg, List.filter_cons, List.filter_nil, vec3_0, vec3_1, vec3_2]
  norm_num

theorem thick_tensor (sol : Solver) (i j : Fin 3) : tensorOf (thickCfg sol) sphere i j =
    if i = j then (if i = 0 then 729 / 19 else if i = 1 then 576 / 19 else 25 / 19) else 0 := by
  unfold tensorOf massTensor
  rw [thick_start]
  have hr : (thickCfg sol).reduced = false := rfl
  have hc : (thickCfg sol).srcCenter = 0 := rfl
  rw [hr, hc]
  simp only [List.map_cons, List.map_nil, List.sum_cons, List.sum_nil, Pi.zero_apply, sub_zero]
  fin_cases i <;> fin_cases j <;> simp <;> norm_num

theorem thick_principal (sol : Solver) : Principal (tensorOf (thickCfg sol) sphere) (27 / √19) (24 / √19) (5 / √19)
    ![1, 0, 0] ![0, 1, 0] ![0, 0, 1] := by
  have h19 : (0 : ℝ) < √19 := Real.sqrt_pos.2 (by norm_num)
  have hs : √19 ^ 2 = (19 : ℝ) := Real.sq_sqrt (by norm_num)
  refine ⟨by positivity, ?_, ?_, unit_axes, ?_, ?_, ?_⟩
  · gcongr; norm_num
  · gcongr; norm_num
  all_goals
    intro i
    rw [div_pow, hs, thick_tensor, thick_tensor, thick_tensor]
    fin_cases i <;> simp <;> norm_num

/-- Whatever the eigenvalue routine returns, the first iteration finds the same axes up to sign. -/
theorem thick_first (sol : Solver) {e : Ellipsoid} (h : PrincipalAxes (thickCfg sol) sphere e) :
    e.q = 8 / 9 ∧ e.s = 5 / 27 ∧ ∀ v : Vec ℝ, dot e.major v ^ 2 = v 0 ^ 2 ∧ dot e.inter v ^ 2 = v 1 ^ 2 ∧ dot e.minor v ^ 2 = v 2 ^ 2 := by
  have h19 : (0 : ℝ) < √19 := Real.sqrt_pos.2 (by norm_num)
  have hs : √19 ^ 2 = (19 : ℝ) := Real.sq_sqrt (by norm_num)
  obtain ⟨a, b, c, p, hq, hs'⟩ := h.principal
  obtain ⟨rfl, rfl, rfl⟩ := (thick_principal sol).unique (tensorOf_symm _) p
  refine ⟨by rw [hq]; field_simp; norm_num, by rw [hs']; field_simp, ?_⟩
  obtain ⟨o1, o2, o3, -, -, -⟩ := p.axes
  have m0 := p.major 1
  have m1 := p.major 2
  have i0 := p.inter 0
  have i1 := p.inter 2
  have n0 := p.minor 0
  have n1 := p.minor 1
  rw [div_pow, hs, thick_tensor, thick_tensor, thick_tensor] at m0 m1 i0 i1 n0 n1
  simp at m0 m1 i0 i1 n0 n1
  have e1 : e.major 1 = 0 := m0.resolve_left (by norm_num)
  have e2 : e.major 2 = 0 := m1.resolve_left (by norm_num)
  have e3 : e.inter 0 = 0 := i0.resolve_left (by norm_num)
  have e4 : e.inter 2 = 0 := i1.resolve_left (by norm_num)
  have e5 : e.minor 0 = 0 := n0.resolve_left (by norm_num)
  have e6 : e.minor 1 = 0 := n1.resolve_left (by norm_num)
  unfold dot at *
  rw [e1, e2] at o1
  rw [e3, e4] at o2
  rw [e5, e6] at o3
  intro v
  rw [e1, e2, e3, e4, e5, e6]
  refine ⟨?_, ?_, ?_⟩
  · linear_combination v 0 ^ 2 * o1
  · linear_combination v 1 ^ 2 * o2
  · linear_combination v 2 ^ 2 * o3

open Classical in
theorem thick_second (sol : Solver) {e : Ellipsoid} (hq : e.q = 8 / 9) (hs : e.s = 5 / 27)
    (hv : ∀ v : Vec ℝ, dot e.major v ^ 2 = v 0 ^ 2 ∧ dot e.inter v ^ 2 = v 1 ^ 2 ∧ dot e.minor v ^ 2 = v 2 ^ 2) :
    members (thickCfg sol) e =
    [⟨![9, 0, 0], ![9, 0, 0], 1⟩, ⟨![-9, 0, 0], ![-9, 0, 0], 1⟩, ⟨![0, 8, 0], ![0, 8, 0], 1⟩, ⟨![0, -8, 0], ![0, -8, 0], 1⟩] := by
  have hin : ∀ p : Pt, Inside (thickCfg sol) e.major e.inter e.minor e.q e.s p ↔
      p.x 0 ^ 2 + p.x 1 ^ 2 / (8 / 9) ^ 2 + p.x 2 ^ 2 / (5 / 27) ^ 2 < 100 ∧
      1 ≤ p.x 0 ^ 2 / 16 + p.x 1 ^ 2 / (26 / 9) ^ 2 + p.x 2 ^ 2 / (112 / 27) ^ 2 := by
    intro p
    unfold Inside ellipsoidal2
    rw [thick_rel, (hv p.x).1, (hv p.x).2.1, (hv p.x).2.2, hq, hs]
    have hd : (thickCfg sol).d = 10 := rfl
    have hδ : (thickCfg sol).deltaD = some 6 := rfl
    rw [hd, hδ]
    constructor
    · rintro ⟨h1, h2⟩
      have h2 := h2 _ rfl (by norm_num)
      norm_num at h1 h2 ⊢
      exact ⟨h1, h2⟩
    · rintro ⟨h1, h2⟩
      refine ⟨by norm_num at h1 ⊢; linarith, ?_⟩
      intro δ hδ' _
      obtain rfl := Option.some.inj hδ'
      norm_num at h2 ⊢
      linarith
  unfold members
  simp only [hin]
  simp only [thickCfg, List.filter_cons, List.filter_nil, vec3_0, vec3_1, vec3_2]
  norm_num

/-- C166 (refutation): for a thickness larger than the shortest semi-axis the inner boundary of the shell turns inside out.  The
first iteration finds axis ratios 8/9 and 5/27; of the ellipsoid of semi-major axis 10 with these ratios, two particles on its
shortest axis are within 1 of its surface and outside the ellipsoid of
semi-major axis 4, but they are not counted to the shell of thickness 6; what remains lies in a plane, so the call fails with a division by zero. -/
theorem C166_hole_refuted (sol : Solver) (hsol : GoodSolver sol) : ∃ cfg : Config, cfg.solver = sol ∧ cfg.d = 10 ∧ cfg.deltaD = some 6 ∧
    (∀ p ∈ cfg.pts, 0 < p.m) ∧ Proper thickShape ∧ PrincipalAxes cfg sphere thickShape ∧
    (∃ p ∈ cfg.pts, p.x = ![0, 0, 3 / 2] ∧ radiusAt cfg thickShape p.x = 81 / 10 ∧ p ∉ members cfg thickShape) ∧
    ∀ morph sc, Fits cfg sc → ∀ fuel, 11 ≤ fuel → runAlgo fuel cfg morph sc = some none := by
  have hself : ∀ v : Vec ℝ, dot thickShape.major v ^ 2 = v 0 ^ 2 ∧ dot thickShape.inter v ^ 2 = v 1 ^ 2 ∧
      dot thickShape.minor v ^ 2 = v 2 ^ 2 := by
    intro v
    simp [thickShape, dot]
  have hm : ∀ p ∈ (thickCfg sol).pts, 0 < p.m := by
    intro p hp
    simp only [thickCfg, List.mem_cons, List.not_mem_nil, or_false] at hp
    rcases hp with rfl | rfl | rfl | rfl | rfl | rfl | rfl | rfl <;> norm_num
  have h19 : (0 : ℝ) < √19 := Real.sqrt_pos.2 (by norm_num)
  have hP := thick_principal sol
  have hlen2 : ∀ e, PrincipalAxes (thickCfg sol) sphere e → members (thickCfg sol) e =
    [⟨![9, 0, 0], ![9, 0, 0], 1⟩, ⟨![-9, 0, 0], ![-9, 0, 0], 1⟩, ⟨![0, 8, 0], ![0, 8, 0], 1⟩, ⟨![0, -8, 0], ![0, -8, 0], 1⟩] :=
    fun e he => by
      obtain ⟨hq, hs, hv⟩ := thick_first sol he
      exact thick_second sol hq hs hv
  have hstuck : ∀ e e', PrincipalAxes (thickCfg sol) sphere e → ¬ PrincipalAxes (thickCfg sol) e e' := by
    intro e e' he he'
    refine not_planar he' ![0, 0, 1] (fun h => by simpa using congrFun h 2) ?_
    rw [hlen2 e he]
    intro p hp
    have hc : (thickCfg sol).srcCenter = 0 := rfl
    simp only [List.mem_cons, List.not_mem_nil, or_false] at hp
    rcases hp with rfl | rfl | rfl | rfl <;> simp [dot, hc]
  have hreach : ∀ n e, Reached (thickCfg sol) n e → (n = 0 ∧ e = sphere) ∨ (n = 1 ∧ PrincipalAxes (thickCfg sol) sphere e) := by
    intro n e h
    induction h with
    | sphere => exact .inl ⟨rfl, rfl⟩
    | @step n e e' h enough axes unsettled ih =>
      rcases ih with ⟨rfl, rfl⟩ | ⟨-, hp⟩
      · exact .inr ⟨rfl, axes⟩
      · exact absurd axes (hstuck e e' hp)
  refine ⟨thickCfg sol, rfl, rfl, rfl, hm, ⟨unit_axes, ?_, ?_, ?_⟩, ⟨unit_axes, _, _, _, hP.pos, hP.cb, hP.ba, ?_, ?_, hP.major, hP.inter,
    hP.minor⟩, ⟨⟨![0, 0, 3 / 2], ![0, 0, 3 / 2], 1⟩, ?_, rfl, ?_, ?_⟩, ?_⟩
  · norm_num [thickShape]
  · norm_num [thickShape]
  · norm_num [thickShape]
  · show (8 / 9 : ℝ) = _; field_simp; norm_num
  · show (5 / 27 : ℝ) = _; field_simp
  · simp [thickCfg]
  · unfold radiusAt ellipsoidal2
    rw [(hself _).1, (hself _).2.1, (hself _).2.2]
    have hc : (thickCfg sol).center = 0 := rfl
    rw [hc]
    show √(((0 : ℝ) - 0) ^ 2 + (0 - 0) ^ 2 / (8 / 9) ^ 2 + (3 / 2 - 0) ^ 2 / (5 / 27) ^ 2) = 81 / 10
    rw [show (((0 : ℝ) - 0) ^ 2 + (0 - 0) ^ 2 / (8 / 9) ^ 2 + (3 / 2 - 0) ^ 2 / (5 / 27) ^ 2) = (81 / 10) ^ 2 by norm_num]
    exact Real.sqrt_sq (by norm_num)
  · rw [thick_second sol rfl rfl hself]
    intro h
    simp only [List.mem_cons, List.not_mem_nil, or_false, Pt.mk.injEq] at h
    rcases h with ⟨h, -⟩ | ⟨h, -⟩ | ⟨h, -⟩ | ⟨h, -⟩ <;> · have := congrFun h 2; rw [vec3_2, vec3_2] at this; norm_num at this
  · intro morph sc hf fuel hfuel
    rcases C105_outcome (thickCfg sol) morph sc hf hsol hm (by norm_num [thickCfg]) fuel hfuel with
      ⟨m, sc', -, n, e, e', hr, -, -, hax, hset, -⟩ | ⟨sc', -, n, e, hr, hbad⟩ | ⟨h, -⟩
    · exfalso
      rcases hreach n e hr with ⟨rfl, rfl⟩ | ⟨rfl, hp⟩
      · have h1 := hset.2
        rw [(thick_first sol hax).2.1] at h1
        have ht : (thickCfg sol).tol = 1 / 100 := rfl
        have h0 : sphere.s = 1 := rfl
        rw [ht, h0] at h1
        norm_num [abs_le] at h1
      · exact hstuck e e' hp hax
    · exfalso
      have hw : (thickCfg sol).wall = 10 := rfl
      have hi : (thickCfg sol).itMin = 4 := rfl
      rcases hreach n e hr with ⟨rfl, rfl⟩ | ⟨rfl, hp⟩
      · rw [thick_start, hw, hi] at hbad
        simp at hbad
      · rw [hlen2 e hp, hw, hi] at hbad
        simp at hbad
    · exact h

/-- A thin shell: of the same particles, the one at 9 on the first axis is in the shell between 9 and 10. -/
example (sol : Solver) : ∃ (cfg : Config) (δ : ℝ) (p : Pt), cfg = { thickCfg sol with deltaD := some 1 } ∧ Proper thickShape ∧
    cfg.deltaD = some δ ∧ 0 < δ ∧ δ < thickShape.s * cfg.d ∧ p ∈ members cfg thickShape := by
  have hP : Proper thickShape := ⟨unit_axes, by norm_num [thickShape], by norm_num [thickShape], by norm_num [thickShape]⟩
  have h1 : (1 : ℝ) < thickShape.s * 10 := by norm_num [thickShape]
  have hr : radiusAt { thickCfg sol with deltaD := some 1 } thickShape ![9, 0, 0] = 9 := by
    unfold radiusAt ellipsoidal2 thickShape thickCfg dot
    simp only [vec3_0, vec3_1, vec3_2, Pi.zero_apply]
    rw [show ((1 * ((9 : ℝ) - 0) + 0 * (0 - 0) + 0 * (0 - 0)) ^ 2 + (0 * (9 - 0) + 1 * (0 - 0) + 0 * (0 - 0)) ^ 2 / (8 / 9) ^ 2 +
      (0 * (9 - 0) + 0 * (0 - 0) + 1 * (0 - 0)) ^ 2 / (5 / 27) ^ 2) = 9 ^ 2 by norm_num]
    exact Real.sqrt_sq (by norm_num)
  refine ⟨{ thickCfg sol with deltaD := some 1 }, 1, ⟨![9, 0, 0], ![9, 0, 0], 1⟩, rfl, hP, rfl, one_pos, h1,
    (C166_shell_partial hP rfl one_pos h1 (by norm_num [thickCfg])).2 _ (by simp [thickCfg]) ?_ ?_⟩
  · rw [hr]; norm_num [thickCfg]
  · rw [hr]; norm_num [thickCfg]

/-- Radii which are close enough: each at most twice the one before, for axis ratios above 1/2. -/
example : ∀ (k : Nat) (x y : ℝ), [(1 : ℝ), 3 / 2, 2][k]? = some x → [(1 : ℝ), 3 / 2, 2][k + 1]? = some y →
    x < y ∧ y - x < (3 / 5 : ℝ) * y := by
  intro k x y hx hy
  match k with
  | 0 => simp at hx hy; subst hx hy; norm_num
  | 1 => simp at hx hy; subst hx hy; norm_num
  | k + 2 => simp at hy

end Verif.Shapes
