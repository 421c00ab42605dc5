import Verif.Binning.Lemmas
import Verif.Periodic.Props

/-!
# Profile properties C27–C33, C76
-/

namespace Verif.Binning

/-! ## Specification -/

/-- Distance of a particle from the center. -/
noncomputable def radius (center : Vec ℝ) (p : Particle ℝ) : ℝ :=
  Real.sqrt ((center 0 - p.pos 0) ^ 2 + (center 1 - p.pos 1) ^ 2 + (center 2 - p.pos 2) ^ 2)

/-- Mass of the particles with `lo ≤ radius < hi`. -/
noncomputable def massBetween (center : Vec ℝ) (ps : List (Particle ℝ)) (lo hi : ℝ) : ℝ :=
  ((ps.filter fun p => decide (lo ≤ radius center p ∧ radius center p < hi)).map fun p => p.mass).sum

/-- Mass of the particles with `radius < r`. -/
noncomputable def massWithin (center : Vec ℝ) (ps : List (Particle ℝ)) (r : ℝ) : ℝ :=
  ((ps.filter fun p => decide (radius center p < r)).map fun p => p.mass).sum

/-- Volume of a spherical shell. -/
noncomputable def shellVolume (lo hi : ℝ) : ℝ := 4 / 3 * Real.pi * (hi ^ 3 - lo ^ 3)

/-- The bins between consecutive edges. -/
def bins (edges : List ℝ) : List (ℝ × ℝ) := edges.zip edges.tail

/-- Admissible edges: non-negative and increasing. -/
def GoodEdges (edges : List ℝ) : Prop := (∀ e ∈ edges, 0 ≤ e) ∧ edges.Pairwise (· < ·)

/-! ## Auxiliary lemmas -/

theorem sq_le_dist2_iff (center : Vec ℝ) (p : Particle ℝ) (r : ℝ) (hr : 0 ≤ r) :
    r ^ 2 ≤ dist2 center p.pos ↔ r ≤ radius center p := by
  unfold radius dist2
  rw [Real.le_sqrt hr (by positivity)]

theorem dist2_lt_iff (center : Vec ℝ) (p : Particle ℝ) (r : ℝ) (hr : 0 ≤ r) :
    dist2 center p.pos < r ^ 2 ↔ radius center p < r := by
  rw [← not_le, ← not_le, sq_le_dist2_iff center p r hr]

theorem qSph_eq (center : Vec ℝ) (r200 lo hi : ℝ) (hr : 0 ≤ r200) (hlo : 0 ≤ lo) (hhi : 0 ≤ hi) :
    qSph center r200 lo hi = fun p =>
      decide (lo * r200 ≤ radius center p ∧ radius center p < hi * r200) := by
  funext p
  unfold qSph
  rw [decide_eq_decide, dist2_lt_iff center p _ (mul_nonneg hhi hr), ge_iff_le,
    sq_le_dist2_iff center p _ (mul_nonneg hlo hr), and_comm]

theorem sum_filter_div (ps : List (Particle ℝ)) (q : Particle ℝ → Bool) (v : ℝ) :
    ((ps.filter q).map fun p => p.mass / v).sum = ((ps.filter q).map fun p => p.mass).sum / v :=
  sum_map_div' _ _ _

/-- In an initial segment of true values followed by false ones there is at most one step. -/
theorem count_pairs {α : Type} (P : α → Bool) (l : List α)
    (h : l.Pairwise fun a b => P b = true → P a = true) :
    ((l.zip l.tail).filter fun e => P e.1 && !P e.2).length =
      if l.head?.any P && l.getLast?.any (fun a => !P a) then 1 else 0 := by
  induction l with
  | nil => simp
  | cons a l ih =>
    cases l with
    | nil => cases hP : P a <;> simp [hP]
    | cons b l =>
      have ih := ih h.tail
      have hab := (List.pairwise_cons.1 h).1 b (by simp)
      simp only [List.tail_cons, List.zip_cons_cons] at ih ⊢
      have hlast : (a :: b :: l).getLast? = (b :: l).getLast? := by simp [List.getLast?_cons]
      rw [hlast]
      cases hPb : P b with
      | true =>
        have hPa := hab hPb
        simp only [List.filter_cons, hPa, hPb, Bool.not_true, Bool.and_false, Bool.false_eq_true,
          if_false, List.head?_cons, Option.any_some, Bool.true_and] at ih ⊢
        exact ih
      | false =>
        simp only [List.head?_cons, Option.any_some, hPb, Bool.false_and, Bool.false_eq_true,
          if_false] at ih
        have hl : (b :: l).getLast?.any (fun a => !P a) = true := by
          have hmem := List.getLast_mem (l := b :: l) (by simp)
          rw [List.getLast?_eq_some_getLast (by simp)]
          simp only [Option.any_some]
          rcases List.mem_cons.1 hmem with he | he
          · rw [he, hPb]; rfl
          · have := (List.pairwise_cons.1 h.tail).1 _ he
            cases hc : P ((b :: l).getLast (by simp)) with
            | false => rfl
            | true => rw [hc] at this; rw [this rfl] at hPb; cases hPb
        cases hPa : P a with
        | true =>
          simp only [List.filter_cons, hPa, hPb, Bool.not_false, Bool.and_true, if_true,
            List.length_cons, ih, List.head?_cons, Option.any_some, hl]
        | false =>
          simp only [List.filter_cons, hPa, hPb, Bool.false_and, Bool.false_eq_true, if_false, ih,
            List.head?_cons, Option.any_some]

/-! ## C27 -/

/-- C27 (spherical). The profile at a bin is the mass of the particles whose radius lies in the bin,
divided by the volume of the bin. -/
theorem C27_profile (ps : List (Particle ℝ)) (center : Vec ℝ) (r200 : ℝ) (hr : 0 ≤ r200)
    (edges : List ℝ) (he : ∀ e ∈ edges, 0 ≤ e) (shell : List Nat)
    (hshell : ps.length ≤ shell.length) :
    (densProfSph ps center r200 edges shell).1 = (bins edges).map fun e =>
      massBetween center ps (e.1 * r200) (e.2 * r200) / shellVolume (e.1 * r200) (e.2 * r200) := by
  rw [densProfSph_eq ps center r200 edges shell hshell]
  unfold bins
  apply List.map_congr_left
  intro e hmem
  have h1 := he e.1 (List.of_mem_zip hmem).1
  have h2 := he e.2 (List.mem_of_mem_tail (List.of_mem_zip hmem).2)
  rw [sum_filter_div, qSph_eq center r200 e.1 e.2 hr h1 h2]
  rfl

/-- C27 (spherical). A radius lies in exactly one bin if it is between the first and the last edge, and
in no bin otherwise. -/
theorem C27_one_bin (edges : List ℝ) (he : edges.Pairwise (· < ·)) (first last x : ℝ)
    (hf : edges.head? = some first) (hl : edges.getLast? = some last) :
    ((bins edges).filter fun e => decide (e.1 ≤ x ∧ x < e.2)).length =
      if first ≤ x ∧ x < last then 1 else 0 := by
  have := count_pairs (fun e : ℝ => decide (e ≤ x)) edges
    (he.imp fun h hb => by simp only [decide_eq_true_eq] at hb ⊢; linarith)
  rw [hf, hl] at this
  simp only [Option.any_some, Bool.and_eq_true, decide_eq_true_eq, Bool.not_eq_true',
    decide_eq_false_iff_not, not_le] at this
  rw [← this]
  unfold bins
  congr 1
  apply List.filter_congr
  intro e _
  rw [Bool.eq_iff_iff]
  simp

example : ((bins [1, 2, 4]).filter fun e => decide (e.1 ≤ (2 : ℝ) ∧ 2 < e.2)).length = 1 := by
  rw [C27_one_bin [1, 2, 4] (by norm_num) 1 4 2 (by simp) (by simp)]; norm_num

/-- Bins of the ellipsoidal profile if all bins have the same axis directions. -/
def ellBins (f : Frame) (axes : List Axes) : List (Frame × Axes × Axes) :=
  (axes.zip axes.tail).map fun e => (f, e.1, e.2)

/-- C27 (ellipsoidal, partial). If the axis directions are the same in all bins and the semi-axes are
positive and do not shrink outwards, a particle lies in exactly one bin if it is outside the
innermost and inside the outermost ellipsoid, and in no bin otherwise.  Missing: axis directions
changing with radius, see `C27_counted_twice_refuted`. -/
theorem C27_ellipsoidal_partial (f : Frame) (center : Vec ℝ) (axes : List Axes)
    (hpos : ∀ e ∈ axes, 0 < e.a ∧ 0 < e.b ∧ 0 < e.c)
    (hmono : axes.Pairwise fun e e' => e.a ≤ e'.a ∧ e.b ≤ e'.b ∧ e.c ≤ e'.c)
    (first last : Axes) (hf : axes.head? = some first) (hl : axes.getLast? = some last)
    (p : Particle ℝ) :
    ((ellBins f axes).filter fun b => qEll center b p).length =
      if 1 ≤ level f center first p.pos ∧ level f center last p.pos < 1 then 1 else 0 := by
  have hanti : axes.Pairwise fun e e' => level f center e' p.pos ≤ level f center e p.pos := by
    apply List.Pairwise.imp_of_mem _ hmono
    intro e e' he he' hm
    obtain ⟨h1, h2, h3⟩ := hpos e he
    have hq : ∀ (x a a' : ℝ), 0 < a → a ≤ a' → (x / a') ^ 2 ≤ (x / a) ^ 2 := by
      intro x a a' ha haa
      rw [div_pow, div_pow]
      apply div_le_div_of_nonneg_left (sq_nonneg _) (by positivity)
      exact pow_le_pow_left₀ ha.le haa 2
    unfold level
    have := hq (component f.major center p.pos) e.a e'.a h1 hm.1
    have := hq (component f.inter center p.pos) e.b e'.b h2 hm.2.1
    have := hq (component f.minor center p.pos) e.c e'.c h3 hm.2.2
    linarith
  have := count_pairs (fun e : Axes => decide (1 ≤ level f center e p.pos)) axes
    (hanti.imp fun h hb => by simp only [decide_eq_true_eq] at hb ⊢; linarith)
  rw [hf, hl] at this
  simp only [Option.any_some, Bool.and_eq_true, decide_eq_true_eq, Bool.not_eq_true',
    decide_eq_false_iff_not, not_le] at this
  rw [← this]
  unfold ellBins
  rw [List.filter_map, List.length_map]
  congr 1
  apply List.filter_congr
  intro e _
  rw [Bool.eq_iff_iff]
  simp [qEll, and_comm]

/-- Coordinate axes in two different orders. -/
def frameXYZ : Frame := ⟨![1, 0, 0], ![0, 1, 0], ![0, 0, 1]⟩
/-- The first two axes exchanged. -/
def frameYXZ : Frame := ⟨![0, 1, 0], ![1, 0, 0], ![0, 0, 1]⟩

theorem level_XYZ (e : Axes) (x y z : ℝ) :
    level frameXYZ 0 e ![x, y, z] = (x / e.a) ^ 2 + (y / e.b) ^ 2 + (z / e.c) ^ 2 := by
  simp [level, frameXYZ, component]

theorem level_YXZ (e : Axes) (x y z : ℝ) :
    level frameYXZ 0 e ![x, y, z] = (y / e.a) ^ 2 + (x / e.b) ^ 2 + (z / e.c) ^ 2 := by
  simp [level, frameYXZ, component]

/-- C27 is false for ellipsoidal bins whose axis directions change with radius: with semi-axes growing
as (3,1,1), (6,2,2), (15,5,5) and the major axis along x in the inner and along y in the outer bin, a
particle at (4,0,0) is counted in both bins. -/
theorem C27_counted_twice_refuted :
    qEll 0 (frameXYZ, ⟨3, 1, 1⟩, ⟨6, 2, 2⟩) ⟨![4, 0, 0], 1⟩ = true ∧
    qEll 0 (frameYXZ, ⟨6, 2, 2⟩, ⟨15, 5, 5⟩) ⟨![4, 0, 0], 1⟩ = true := by
  constructor <;> simp only [qEll, level_XYZ, level_YXZ, decide_eq_true_eq] <;> norm_num

example : ((ellBins frameXYZ [⟨3, 1, 1⟩, ⟨6, 2, 2⟩, ⟨9, 3, 3⟩]).filter fun b =>
    qEll 0 b ⟨![4, 0, 0], 1⟩).length = 1 := by
  rw [C27_ellipsoidal_partial frameXYZ 0 _ (by simp) (by norm_num) ⟨3, 1, 1⟩ ⟨9, 3, 3⟩ (by simp)
    (by simp), level_XYZ, level_XYZ]
  norm_num

/-! ## C28 -/

theorem massBetween_add (center : Vec ℝ) (ps : List (Particle ℝ)) (a b c : ℝ) (hab : a ≤ b)
    (hbc : b ≤ c) : massBetween center ps a b + massBetween center ps b c =
      massBetween center ps a c := by
  unfold massBetween
  induction ps with
  | nil => simp
  | cons p ps ih =>
    simp only [List.filter_cons]
    by_cases h1 : a ≤ radius center p ∧ radius center p < b
    · have h2 : ¬ (b ≤ radius center p ∧ radius center p < c) := fun h => by linarith [h1.2, h.1]
      have h3 : a ≤ radius center p ∧ radius center p < c := ⟨h1.1, by linarith [h1.2]⟩
      rw [decide_eq_true h1, decide_eq_false h2, decide_eq_true h3]
      simp only [if_true, List.map_cons, List.sum_cons, Bool.false_eq_true, if_false]
      linarith
    · by_cases h2 : b ≤ radius center p ∧ radius center p < c
      · have h3 : a ≤ radius center p ∧ radius center p < c := ⟨by linarith [h2.1], h2.2⟩
        rw [decide_eq_false h1, decide_eq_true h2, decide_eq_true h3]
        simp only [if_true, List.map_cons, List.sum_cons, Bool.false_eq_true, if_false]
        linarith
      · have h3 : ¬ (a ≤ radius center p ∧ radius center p < c) := by
          rintro ⟨h, h'⟩
          rcases lt_or_ge (radius center p) b with hb | hb
          · exact h1 ⟨h, hb⟩
          · exact h2 ⟨hb, h'⟩
        rw [decide_eq_false h1, decide_eq_false h2, decide_eq_false h3]
        simp only [Bool.false_eq_true, if_false]
        exact ih

theorem shellVolume_pos {lo hi : ℝ} (h0 : 0 ≤ lo) (h : lo < hi) : 0 < shellVolume lo hi := by
  unfold shellVolume
  have : lo ^ 3 < hi ^ 3 := pow_lt_pow_left₀ h h0 (by norm_num)
  have := Real.pi_pos
  have : 0 < hi ^ 3 - lo ^ 3 := by linarith
  positivity

theorem bins_lt {edges : List ℝ} (h : edges.Pairwise (· < ·)) : ∀ e ∈ bins edges, e.1 < e.2 := by
  induction edges with
  | nil => simp [bins]
  | cons a l ih =>
    cases l with
    | nil => simp [bins]
    | cons b l =>
      intro e he
      simp only [bins, List.tail_cons, List.zip_cons_cons, List.mem_cons] at he
      rcases he with rfl | he
      · exact (List.pairwise_cons.1 h).1 b (by simp)
      · exact ih h.tail e he

/-- C28. Density times shell volume, summed over all bins, is the mass of the particles between the
first and the last edge. -/
theorem C28_mass_conserved (ps : List (Particle ℝ)) (center : Vec ℝ) (r200 : ℝ) (hr : 0 < r200)
    (edges : List ℝ) (he : GoodEdges edges) (first last : ℝ) (hf : edges.head? = some first)
    (hl : edges.getLast? = some last) (shell : List Nat) (hshell : ps.length ≤ shell.length) :
    (List.zipWith (fun dens e => dens * shellVolume (e.1 * r200) (e.2 * r200))
      (densProfSph ps center r200 edges shell).1 (bins edges)).sum =
      massBetween center ps (first * r200) (last * r200) := by
  rw [C27_profile ps center r200 hr.le edges he.1 shell hshell]
  have hz : ∀ (l : List (ℝ × ℝ)) (g h : ℝ × ℝ → ℝ),
      List.zipWith (fun d e => d * h e) (l.map g) l = l.map fun e => g e * h e := by
    intro l g h
    induction l with
    | nil => rfl
    | cons a l ih => simp [ih]
  rw [hz]
  have hcancel : (bins edges).map (fun e => massBetween center ps (e.1 * r200) (e.2 * r200) /
      shellVolume (e.1 * r200) (e.2 * r200) * shellVolume (e.1 * r200) (e.2 * r200)) =
      (bins edges).map fun e => massBetween center ps (e.1 * r200) (e.2 * r200) := by
    apply List.map_congr_left
    intro e hmem
    have hlt := bins_lt he.2 e hmem
    have h0 := he.1 e.1 (List.of_mem_zip hmem).1
    have := shellVolume_pos (mul_nonneg h0 hr.le) (mul_lt_mul_of_pos_right hlt hr)
    rw [div_mul_cancel₀ _ this.ne']
  rw [hcancel]
  clear hcancel hz
  induction edges generalizing first with
  | nil => simp at hf
  | cons a l ih =>
    simp only [List.head?_cons, Option.some.injEq] at hf
    subst hf
    cases l with
    | nil =>
      simp only [List.getLast?_singleton, Option.some.injEq] at hl
      subst hl
      have h0 : ∀ p ∈ ps, ¬ (decide (a * r200 ≤ radius center p ∧ radius center p < a * r200) = true) := by
        intro p _
        simp only [decide_eq_true_eq, not_and, not_lt]
        exact fun h => h
      simp only [bins, massBetween, List.tail_cons, List.zip_nil_right, List.map_nil, List.sum_nil]
      rw [List.filter_eq_nil_iff.2 h0]; rfl
    | cons b l =>
      have hlast : (b :: l).getLast? = some last := by
        rw [← hl]; simp [List.getLast?_cons]
      have := ih ⟨fun e h => he.1 e (by simp [h]), he.2.tail⟩ b (by simp) hlast
      have hsplit : bins (a :: b :: l) = (a, b) :: bins (b :: l) := rfl
      rw [hsplit, List.map_cons, List.sum_cons, this]
      have hab := (List.pairwise_cons.1 he.2).1 b (by simp)
      have hbl : b ≤ last := by
        have hmem := List.mem_of_getLast? hlast
        rcases List.mem_cons.1 hmem with rfl | hmem
        · exact le_refl _
        · exact ((List.pairwise_cons.1 he.2.tail).1 last hmem).le
      exact massBetween_add center ps _ _ _ (mul_le_mul_of_nonneg_right hab.le hr.le)
        (mul_le_mul_of_nonneg_right hbl hr.le)

example : (List.zipWith (fun dens e => dens * shellVolume (e.1 * 1) (e.2 * 1))
      (densProfSph [⟨![1, 0, 0], 5⟩, ⟨![3, 0, 0], 7⟩] 0 1 [1, 2, 4] [0, 0]).1 (bins [1, 2, 4])).sum =
      12 := by
  rw [C28_mass_conserved _ _ 1 (by norm_num) _ ⟨by simp, by norm_num⟩ 1 4 (by simp) (by simp) _
    (by simp)]
  have h1 : radius 0 ⟨![1, 0, 0], 5⟩ = 1 := by simp [radius]
  have h3 : radius 0 ⟨![3, 0, 0], 7⟩ = 3 := by
    simp [radius]
  unfold massBetween
  simp only [List.filter_cons, h1, h3]
  norm_num

/-! ## C29 -/

theorem sum_filter_perm {ps ps' : List (Particle ℝ)} (h : ps'.Perm ps) (q : Particle ℝ → Bool)
    (f : Particle ℝ → ℝ) : ((ps'.filter q).map f).sum = ((ps.filter q).map f).sum :=
  ((h.filter q).map f).sum_eq

/-- C29. Reordering the particles changes neither the density profile nor the enclosed mass, for a given
center and (since the center of mass does not depend on the order either) about the center of mass. -/
theorem C29_order_independent (ps ps' : List (Particle ℝ)) (h : ps'.Perm ps) (center : Vec ℝ)
    (r200 : ℝ) (edges : List ℝ) (shell shell' : List Nat) (hs : ps.length ≤ shell.length)
    (hs' : ps'.length ≤ shell'.length) :
    (densProfSph ps' center r200 edges shell').1 = (densProfSph ps center r200 edges shell).1 ∧
    (menclSph ps' center r200 edges shell').1 = (menclSph ps center r200 edges shell).1 ∧
    (totalMass ps ≠ 0 → ∀ choose choose',
      (densProfSph ps' (Periodic.calcCoM choose' ps') r200 edges shell').1 =
        (densProfSph ps (Periodic.calcCoM choose ps) r200 edges shell).1) := by
  have key : ∀ center, (densProfSph ps' center r200 edges shell').1 =
      (densProfSph ps center r200 edges shell).1 := by
    intro center
    rw [densProfSph_eq ps' center r200 edges shell' hs', densProfSph_eq ps center r200 edges shell hs]
    apply List.map_congr_left
    intro e _
    exact sum_filter_perm h _ _
  refine ⟨key center, ?_, ?_⟩
  · rw [menclSph_eq ps' center r200 edges shell' hs', menclSph_eq ps center r200 edges shell hs]
    apply List.map_congr_left
    intro r _
    exact sum_filter_perm h _ _
  · intro hM choose choose'
    rw [(Periodic.C25_centre_of_mass choose ps hM).1 choose' ps' h]
    exact key _

example : (densProfSph [⟨![1, 0, 0], 5⟩, ⟨![3, 0, 0], 7⟩] 0 1 [1, 2, 4] [0, 0]).1 =
    (densProfSph [⟨![3, 0, 0], 7⟩, ⟨![1, 0, 0], 5⟩] 0 1 [1, 2, 4] [9, 9]).1 :=
  (C29_order_independent _ _ (List.Perm.swap _ _ _) 0 1 [1, 2, 4] _ _ (by simp) (by simp)).1

/-! ## C31 -/

/-- C31. The enclosed mass at each radius is the mass of the particles closer than that; it does not
decrease with radius and never exceeds the total mass. -/
theorem C31_enclosed_mass (ps : List (Particle ℝ)) (hm : ∀ p ∈ ps, 0 ≤ p.mass) (center : Vec ℝ)
    (r200 : ℝ) (hr : 0 ≤ r200) (radii : List ℝ) (h0 : ∀ r ∈ radii, 0 ≤ r)
    (hmono : radii.Pairwise (· ≤ ·)) (shell : List Nat) (hs : ps.length ≤ shell.length) :
    (menclSph ps center r200 radii shell).1 = radii.map (fun r => massWithin center ps (r * r200)) ∧
    (menclSph ps center r200 radii shell).1.Pairwise (· ≤ ·) ∧
    ∀ m ∈ (menclSph ps center r200 radii shell).1, 0 ≤ m ∧ m ≤ totalMass ps := by
  have heq : (menclSph ps center r200 radii shell).1 =
      radii.map (fun r => massWithin center ps (r * r200)) := by
    rw [menclSph_eq ps center r200 radii shell hs]
    apply List.map_congr_left
    intro r hmem
    unfold massWithin qBall
    congr 2
    apply List.filter_congr
    intro p _
    rw [decide_eq_decide, dist2_lt_iff center p _ (mul_nonneg (h0 r hmem) hr)]
  have hle : ∀ (q q' : Particle ℝ → Bool), (∀ p, q p = true → q' p = true) →
      ((ps.filter q).map fun p => p.mass).sum ≤ ((ps.filter q').map fun p => p.mass).sum := by
    intro q q' hqq
    clear heq hs
    induction ps with
    | nil => simp
    | cons p ps ih =>
      have ih := ih fun p hp => hm p (by simp [hp])
      have hp := hm p (by simp)
      simp only [List.filter_cons]
      cases hq : q p with
      | true => rw [hqq p hq]; simp; exact ih
      | false => cases hq' : q' p <;> simp <;> linarith
  refine ⟨heq, ?_, ?_⟩
  · rw [heq, List.pairwise_map]
    refine hmono.imp ?_
    intro a b hab
    apply hle
    intro p hp
    simp only [decide_eq_true_eq] at hp ⊢
    exact lt_of_lt_of_le hp (mul_le_mul_of_nonneg_right hab hr)
  · intro m hmem
    rw [heq] at hmem
    obtain ⟨r, -, rfl⟩ := List.mem_map.1 hmem
    constructor
    · exact sum_map_nonneg' _ _ fun p hp => hm p (List.mem_of_mem_filter hp)
    · have := hle (fun p => decide (radius center p < r * r200)) (fun _ => true) (by simp)
      simpa [totalMass, massWithin] using this

example : (menclSph [⟨![1, 0, 0], 5⟩, ⟨![3, 0, 0], 7⟩] 0 1 [1, 2, 4] [0, 0]).1 = [0, 5, 12] := by
  rw [(C31_enclosed_mass _ (by simp) 0 1 (by norm_num) [1, 2, 4] (by simp) (by norm_num) _ (by simp)).1]
  have h1 : radius 0 ⟨![1, 0, 0], 5⟩ = 1 := by simp [radius]
  have h3 : radius 0 ⟨![3, 0, 0], 7⟩ = 3 := by simp [radius]
  simp only [massWithin, List.map_cons, List.map_nil, List.filter_cons, h1, h3]
  norm_num

/-! ## C32 -/

/-- C32. For non-negative masses and admissible edges densities are non-negative; multiplying all masses
by `c` multiplies the densities by `c`. -/
theorem C32_nonneg_linear (ps : List (Particle ℝ)) (center : Vec ℝ) (r200 : ℝ) (edges : List ℝ)
    (shell : List Nat) (hs : ps.length ≤ shell.length) :
    ((∀ p ∈ ps, 0 ≤ p.mass) → 0 < r200 → GoodEdges edges →
      ∀ d ∈ (densProfSph ps center r200 edges shell).1, 0 ≤ d) ∧
    ∀ c, (densProfSph (ps.map fun p => ⟨p.pos, c * p.mass⟩) center r200 edges shell).1 =
      (densProfSph ps center r200 edges shell).1.map (c * ·) := by
  constructor
  · intro hm hr he d hd
    rw [C27_profile ps center r200 hr.le edges he.1 shell hs] at hd
    obtain ⟨e, hmem, rfl⟩ := List.mem_map.1 hd
    apply div_nonneg
    · exact sum_map_nonneg' _ _ fun p hp => hm p (List.mem_of_mem_filter hp)
    · exact (shellVolume_pos (mul_nonneg (he.1 e.1 (List.of_mem_zip hmem).1) hr.le)
        (mul_lt_mul_of_pos_right (bins_lt he.2 e hmem) hr)).le
  · intro c
    rw [densProfSph_eq _ center r200 edges shell (by simpa using hs),
      densProfSph_eq ps center r200 edges shell hs, List.map_map]
    apply List.map_congr_left
    intro e _
    rw [List.filter_map, List.map_map, Function.comp_apply, ← sum_map_mul_left']
    have : (qSph center r200 e.1 e.2 ∘ fun p => (⟨p.pos, c * p.mass⟩ : Particle ℝ)) =
        qSph center r200 e.1 e.2 := rfl
    rw [this]
    congr 1
    apply List.map_congr_left
    intro p _
    simp only [Function.comp_apply]; ring

example : ∀ d ∈ (densProfSph [⟨![1, 0, 0], 5⟩, ⟨![3, 0, 0], 7⟩] 0 1 [1, 2, 4] [0, 0]).1, 0 ≤ d :=
  (C32_nonneg_linear _ 0 1 [1, 2, 4] _ (by simp)).1 (by simp) (by norm_num) ⟨by simp, by norm_num⟩

/-! ## C30, C76: bin edges -/

theorem midpoints_length (r : List ℝ) : (midpoints r).length = r.length - 1 := by
  induction r with
  | nil => rfl
  | cons a l ih =>
    cases l with
    | nil => rfl
    | cons b l => simp [midpoints, ih]

/-- Interleaving: `first < r₀ < m₀ < r₁ < m₁ < … < r_{n-1} = last edge`. -/
theorem midpoints_sorted (r : List ℝ) (h : r.Pairwise (· < ·)) (x last : ℝ)
    (hl : r.getLast? = some last) (hx : ∀ y ∈ r, x < y) :
    (x :: (midpoints r ++ [last])).Pairwise (· < ·) := by
  induction r generalizing x with
  | nil => simp at hl
  | cons a l ih =>
    cases l with
    | nil =>
      simp only [List.getLast?_singleton, Option.some.injEq] at hl
      subst hl
      simpa [midpoints] using hx
    | cons b l =>
      have hab := (List.pairwise_cons.1 h).1
      have hmid : ∀ y ∈ b :: l, (a + b) / 2 < y := by
        intro y hy
        have h1 := hab b (by simp)
        rcases List.mem_cons.1 hy with rfl | hy
        · linarith
        · have := (List.pairwise_cons.1 h.tail).1 y hy; linarith
      have hrec := ih h.tail ((a + b) / 2) (by rw [← hl]; simp [List.getLast?_cons]) hmid
      simp only [midpoints, List.cons_append]
      rw [List.pairwise_cons]
      refine ⟨?_, hrec⟩
      intro y hy
      have hxm : x < (a + b) / 2 := by
        have h1 := hx a (by simp); have h2 := hx b (by simp); linarith
      rcases List.mem_cons.1 hy with rfl | hy
      · exact hxm
      · exact hxm.trans ((List.pairwise_cons.1 hrec).1 y hy)

/-- C30. For increasing radii above the innermost edge of 1e-8, the edges are one more than the radii,
they increase, they end with the last radius, and every radius except the last one lies strictly
inside its own bin. -/
theorem C30_edges (r : List ℝ) (h : r.Pairwise (· < ·)) (hpos : ∀ x ∈ r, 1e-8 < x) (hne : r ≠ []) :
    ∃ edges, sphEdges r = some edges ∧ edges.length = r.length + 1 ∧ GoodEdges edges ∧
      edges.getLast? = r.getLast? ∧
      ∀ (i : Nat) (x : ℝ), r[i]? = some x → i + 1 < r.length →
        ∃ lo hi, edges[i]? = some lo ∧ edges[i + 1]? = some hi ∧ lo < x ∧ x < hi := by
  obtain ⟨last, hlast⟩ : ∃ last, r.getLast? = some last := ⟨_, List.getLast?_eq_some_getLast hne⟩
  have hlen : 0 < r.length := List.length_pos_iff.2 hne
  have hs := midpoints_sorted r h 1e-8 last hlast hpos
  refine ⟨1e-8 :: (midpoints r ++ [last]), by simp [sphEdges, hlast], ?_, ⟨?_, hs⟩, ?_, ?_⟩
  · simp [midpoints_length]; omega
  · intro e he
    rcases List.mem_cons.1 he with rfl | he
    · norm_num
    · have := (List.pairwise_cons.1 hs).1 e he
      have : (0 : ℝ) < 1e-8 := by norm_num
      linarith
  · rw [hlast]; simp [List.getLast?_cons]
  · clear hs
    have key : ∀ (r : List ℝ), r.Pairwise (· < ·) → ∀ (z : ℝ), (∀ x ∈ r, z < x) →
        ∀ (i : Nat) (x : ℝ), r[i]? = some x → i + 1 < r.length →
        ∃ lo hi, (z :: midpoints r)[i]? = some lo ∧ (z :: midpoints r)[i + 1]? = some hi ∧
          lo < x ∧ x < hi := by
      intro r
      induction r with
      | nil => intro _ _ _ i x hi; simp at hi
      | cons a l ih =>
        intro h z hz i x hi hlt
        cases l with
        | nil => simp at hlt
        | cons b l =>
          have hab := (List.pairwise_cons.1 h).1 b (by simp)
          cases i with
          | zero =>
            simp only [List.getElem?_cons_zero, Option.some.injEq] at hi
            subst hi
            exact ⟨z, (a + b) / 2, rfl, rfl, hz a (by simp), by linarith⟩
          | succ i =>
            have := ih h.tail ((a + b) / 2) (by
              intro y hy
              rcases List.mem_cons.1 hy with rfl | hy
              · linarith
              · have := (List.pairwise_cons.1 h.tail).1 y hy; linarith) i x
              (by simpa using hi) (by simpa using hlt)
            obtain ⟨lo, hi', e1, e2, e3⟩ := this
            exact ⟨lo, hi', by simpa [midpoints] using e1, by simpa [midpoints] using e2, e3⟩
    intro i x hi hlt
    obtain ⟨lo, hi', e1, e2, e3⟩ := key r h 1e-8 hpos i x hi hlt
    refine ⟨lo, hi', ?_, ?_, e3⟩
    · rw [← List.cons_append]
      rw [List.getElem?_append_left (List.getElem?_eq_some_iff.1 e1).1]; exact e1
    · rw [← List.cons_append]
      rw [List.getElem?_append_left (List.getElem?_eq_some_iff.1 e2).1]; exact e2

example : ∃ edges, sphEdges [0.5, 1, 2] = some edges ∧ edges.length = 4 ∧ GoodEdges edges := by
  obtain ⟨e, h1, h2, h3, -⟩ := C30_edges [0.5, 1, 2] (by norm_num) (by
    intro x hx
    simp only [List.mem_cons, List.not_mem_nil, or_false] at hx
    rcases hx with rfl | rfl | rfl <;> norm_num) (by simp)
  exact ⟨e, h1, h2, h3⟩

/-- C76 (partial). For at least three increasing positive radii the edges of the ellipsoidal profile are
one more than the radii and increase, and the first radius lies strictly inside its own bin if the first
spacing does not exceed the second one by too much: `(r₀+r₁)² < 2 r₀ (r₁+r₂)`.  Missing: that
condition is necessary, see `C76_first_radius_outside_refuted`. -/
theorem C76_ellipsoidal_edges_partial (r0 r1 r2 : ℝ) (rs : List ℝ)
    (h : (r0 :: r1 :: r2 :: rs).Pairwise (· < ·)) (h0 : 0 < r0) :
    ∃ lo hi rest, ellEdges (r0 :: r1 :: r2 :: rs) = some (lo :: hi :: rest) ∧
      (lo :: hi :: rest).length = (r0 :: r1 :: r2 :: rs).length + 1 ∧
      GoodEdges (lo :: hi :: rest) ∧
      (lo < r0 ↔ (r0 + r1) ^ 2 < 2 * r0 * (r1 + r2)) ∧ r0 < hi := by
  obtain ⟨last, hlast⟩ : ∃ last, (r0 :: r1 :: r2 :: rs).getLast? = some last :=
    ⟨_, List.getLast?_eq_some_getLast (by simp)⟩
  have h01 : r0 < r1 := (List.pairwise_cons.1 h).1 r1 (by simp)
  have h12 : r1 < r2 := (List.pairwise_cons.1 h.tail).1 r2 (by simp)
  set m0 := (r0 + r1) / 2 with hm0
  set m1 := (r1 + r2) / 2 with hm1
  have hp0 : 0 < m0 := by rw [hm0]; linarith
  have hp1 : 0 < m1 := by rw [hm1]; linarith
  have hlt : m0 < m1 := by rw [hm0, hm1]; linarith
  have hlow : m0 * m0 / m1 < m0 := by
    rw [div_lt_iff₀ hp1]; exact mul_lt_mul_of_pos_left hlt hp0
  have hs := midpoints_sorted (r0 :: r1 :: r2 :: rs) h 0 last hlast (by
    intro y hy
    rcases List.mem_cons.1 hy with rfl | hy
    · exact h0
    · have := (List.pairwise_cons.1 h).1 y hy; linarith)
  have hml : (midpoints (r0 :: r1 :: r2 :: rs)) = m0 :: m1 :: midpoints (r2 :: rs) := rfl
  rw [hml] at hs
  refine ⟨m0 * m0 / m1, m0, m1 :: (midpoints (r2 :: rs) ++ [last]), ?_, ?_, ?_, ?_, ?_⟩
  · simp [ellEdges, hml, hlast]
  · simp [midpoints_length]
  · have hs' := (List.pairwise_cons.1 hs)
    constructor
    · intro e he
      rcases List.mem_cons.1 he with rfl | he
      · positivity
      · exact (hs'.1 e he).le
    · rw [List.pairwise_cons]
      refine ⟨?_, hs'.2⟩
      intro y hy
      rcases List.mem_cons.1 hy with rfl | hy
      · exact hlow
      · exact hlow.trans ((List.pairwise_cons.1 hs'.2).1 y hy)
  · rw [div_lt_iff₀ hp1, hm0, hm1]
    constructor <;> intro h <;> nlinarith
  · rw [hm0]; linarith

/-- Geometric radii satisfy the condition. -/
example (r q : ℝ) (hr : 0 < r) (hq : 1 < q) :
    (r + r * q) ^ 2 < 2 * r * (r * q + r * q ^ 2) := by
  have h1 : 0 < r ^ 2 := by positivity
  have : 0 < r ^ 2 * ((1 + q) * (q - 1)) := by
    apply mul_pos h1 (mul_pos (by linarith) (by linarith))
  nlinarith

/-- C76 is false in general: for radii 1, 10, 11 the first bin starts at 121/42 > 1. -/
theorem C76_first_radius_outside_refuted :
    ∃ hi rest, ellEdges [1, 10, 11] = some (121 / 42 :: hi :: rest) ∧ (1 : ℝ) < 121 / 42 := by
  refine ⟨11 / 2, [21 / 2, 11], ?_, by norm_num⟩
  simp only [ellEdges, midpoints]
  norm_num

/-! ## C33 -/

theorem fillSlice_eq {P : Type} (a o b : List P) (v : P) :
    fillSlice (a ++ o ++ b) a.length (a.length + o.length) v =
      a ++ List.replicate o.length v ++ b := by
  apply List.ext_getElem?
  intro i
  simp only [fillSlice, List.getElem?_map, List.getElem?_zipIdx, List.append_assoc]
  by_cases h1 : i < a.length
  · rw [List.getElem?_append_left h1, List.getElem?_append_left h1, List.getElem?_eq_getElem h1]
    simp only [Option.map_some, Nat.zero_add]
    rw [if_neg (by omega)]
  · have h1 : a.length ≤ i := Nat.le_of_not_lt h1
    rw [List.getElem?_append_right (l₁ := a) h1, List.getElem?_append_right (l₁ := a) h1]
    by_cases h2 : i - a.length < o.length
    · rw [List.getElem?_append_left h2, List.getElem?_append_left (by simpa using h2),
        List.getElem?_eq_getElem h2, List.getElem?_replicate, if_pos h2]
      simp only [Option.map_some, Nat.zero_add]
      rw [if_pos (by omega)]
    · have h2 : o.length ≤ i - a.length := Nat.le_of_not_lt h2
      rw [List.getElem?_append_right (l₁ := o) h2,
        List.getElem?_append_right (l₁ := List.replicate o.length v) (by simpa using h2)]
      simp only [List.length_replicate]
      cases hb : b[i - a.length - o.length]? with
      | none => rfl
      | some x =>
        simp only [Option.map_some, Nat.zero_add]
        rw [if_neg (by omega)]

/-- C33 is false: for every catalogue of non-empty objects, the particle list of each object is replaced
by copies of one single particle number before the profile is computed. -/
theorem C33_particles_replaced_refuted {P : Type} (objs : List (List P)) (hne : ∀ o ∈ objs, o ≠ []) :
    ∃ vs : List P, vs.length = objs.length ∧
      ellIdxCat objs.flatten (objs.map List.length) =
        some (List.zipWith (fun o v => List.replicate o.length v) objs vs).flatten := by
  have key : ∀ (rest : List (List P)) (done : List P) (p0 : Nat), (∀ o ∈ rest, o ≠ []) →
      p0 ≤ done.length → ∃ vs : List P, vs.length = rest.length ∧
      overwriteLoop (done ++ rest.flatten) p0 done.length (rest.map List.length) =
        some (done ++ (List.zipWith (fun o v => List.replicate o.length v) rest vs).flatten) := by
    intro rest
    induction rest with
    | nil => intro done p0 _ _; exact ⟨[], rfl, by simp [overwriteLoop]⟩
    | cons o rest ih =>
      intro done p0 hne hp
      have ho : 0 < o.length := List.length_pos_iff.2 (hne o (by simp))
      obtain ⟨v, hv⟩ : ∃ v, (done ++ (o :: rest).flatten)[p0]? = some v := by
        refine ⟨_, List.getElem?_eq_getElem ?_⟩
        simp; omega
      obtain ⟨vs, hl, hr⟩ := ih (done ++ List.replicate o.length v) (p0 + 1)
        (fun o ho => hne o (by simp [ho])) (by simp; omega)
      refine ⟨v :: vs, by simp [hl], ?_⟩
      simp only [List.map_cons, overwriteLoop, hv]
      rw [List.flatten_cons, ← List.append_assoc, fillSlice_eq]
      have : done.length + o.length = (done ++ List.replicate o.length v).length := by simp
      rw [this, hr]
      simp
  obtain ⟨vs, hl, hr⟩ := key objs [] 0 hne (by simp)
  exact ⟨vs, hl, by simpa [ellIdxCat] using hr⟩

example : ellIdxCat [7, 8, 9, 4, 5] [2, 3] = some [7, 7, 7, 7, 7] := by decide

/-- C33 (partial). If every object consists of a single particle, the particle list is used as given.
Missing: all other catalogues (`C33_particles_replaced_refuted`). -/
theorem C33_single_particles_partial {P : Type} (ids : List P) :
    ellIdxCat ids (ids.map fun _ => 1) = some ids := by
  have key : ∀ (rest done : List P),
      overwriteLoop (done ++ rest) done.length done.length (rest.map fun _ => 1) =
        some (done ++ rest) := by
    intro rest
    induction rest with
    | nil => intro done; simp [overwriteLoop]
    | cons v rest ih =>
      intro done
      have hv : (done ++ v :: rest)[done.length]? = some v := by simp
      simp only [List.map_cons, overwriteLoop, hv]
      have h1 := fillSlice_eq done [v] rest v
      simp only [List.length_singleton, List.replicate_one, List.append_assoc,
        List.singleton_append] at h1
      rw [h1]
      have := ih (done ++ [v])
      simpa using this
  simpa [ellIdxCat] using key ids []

example : ellIdxCat [7, 8, 9] [1, 1, 1] = some [7, 8, 9] := C33_single_particles_partial [7, 8, 9]

/-- C33 (consequence of the refutation). For a catalogue of one object and CENTER = 'com', every bin of
the ellipsoidal profile is NaN, whatever the particles, axes and bins. -/
theorem C33_profile_nan_refuted (idx : List Nat) (hne : idx ≠ []) (part : Nat → Particle ℝ)
    (hm : ∀ j, 0 < (part j).mass) (choose : List Nat) (bs : List (Frame × Axes × Axes))
    (shell : List Nat) (hs : idx.length ≤ shell.length) :
    ∃ used, ellIdxCat idx [idx.length] = some used ∧
      (densProfEll (used.map part) (Periodic.calcCoM choose (used.map part)) bs shell).1 =
        bs.map fun _ => none := by
  obtain ⟨vs, hl, hr⟩ := C33_particles_replaced_refuted [idx] (by simpa using hne)
  obtain ⟨v, rfl⟩ : ∃ v, vs = [v] := List.length_eq_one_iff.1 (by simpa using hl)
  simp only [List.flatten_cons, List.flatten_nil, List.append_nil, List.map_cons, List.map_nil,
    List.zipWith_cons_cons, List.zipWith_nil_right] at hr
  refine ⟨_, hr, ?_⟩
  rw [List.map_replicate]
  have hn : (0 : ℝ) < idx.length := by
    have := List.length_pos_iff.2 hne
    exact_mod_cast this
  have hM : totalMass (List.replicate idx.length (part v)) = idx.length * (part v).mass := by
    simp [totalMass]
  have hcom : Periodic.calcCoM choose (List.replicate idx.length (part v)) = (part v).pos := by
    rw [(Periodic.C25_weighted_mean choose _ (by rw [hM]; exact (mul_pos hn (hm v)).ne')).1]
    funext i
    unfold weightedMean
    rw [hM]
    have := (hm v).ne'
    have := hn.ne'
    simp
    field_simp
  rw [densProfEll_eq _ _ _ _ (by simpa using hs), hcom]
  apply List.map_congr_left
  intro b _
  rw [if_neg]
  simp only [ne_eq, not_not, List.length_eq_zero_iff, List.filter_eq_nil_iff]
  intro p hp
  rw [(List.mem_replicate.1 hp).2]
  simp [qEll, level, component]

/-- C33 (consequence of the refutation). For an object of at least five particles and CENTER = 'mode',
finding the center does not terminate. -/
theorem C33_mode_diverges_refuted (idx : List Nat) (hne : 5 ≤ idx.length) (part : Nat → Particle ℝ)
    (hm : ∀ j, 0 < (part j).mass) :
    ∃ used, ellIdxCat idx [idx.length] = some used ∧
      ∀ fuel, Periodic.calcMode fuel (used.map part) 1000 = none := by
  have hne' : idx ≠ [] := by rintro rfl; simp at hne
  obtain ⟨vs, hl, hr⟩ := C33_particles_replaced_refuted [idx] (by simpa using hne')
  obtain ⟨v, rfl⟩ : ∃ v, vs = [v] := List.length_eq_one_iff.1 (by simpa using hl)
  simp only [List.flatten_cons, List.flatten_nil, List.append_nil, List.map_cons, List.map_nil,
    List.zipWith_cons_cons, List.zipWith_nil_right] at hr
  refine ⟨_, hr, fun fuel => ?_⟩
  rw [List.map_replicate]
  refine Periodic.C26_mode_diverges_refuted _ (part v).pos ?_ (by simpa using hne) ?_ 1000
    (by norm_num) fuel
  · intro p hp; rw [(List.mem_replicate.1 hp).2]
  · have hn : (0 : ℝ) < idx.length := by
      have := List.length_pos_iff.2 hne'
      exact_mod_cast this
    have hM : totalMass (List.replicate idx.length (part v)) = idx.length * (part v).mass := by
      simp [totalMass]
    rw [hM]; exact (mul_pos hn (hm v)).ne'

end Verif.Binning
