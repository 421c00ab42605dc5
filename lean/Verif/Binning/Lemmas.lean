import Verif.Binning.Model
import Mathlib.Data.List.Basic

/-! # Lemmas about the binning loops -/

namespace Verif.Binning

/-- Invariant of the compaction loop. -/
theorem scan_inv (inside : Nat → Bool) (n : Nat) (shell : List Nat) (hlen : n ≤ shell.length) :
    (scan inside n shell).shell.length = shell.length ∧
    (scan inside n shell).corr + (scan inside n shell).pts = n ∧
    (scan inside n shell).pts = ((List.range n).filter inside).length ∧
    (scan inside n shell).shell.take (scan inside n shell).pts = (List.range n).filter inside := by
  induction n with
  | zero => simp [scan]
  | succ n ih =>
    obtain ⟨h1, h2, h3, h4⟩ := ih (by omega)
    have hstep : scan inside (n + 1) shell = scanStep inside (scan inside n shell) n := by
      simp [scan, List.range_succ]
    rw [hstep]
    generalize scan inside n shell = s at h1 h2 h3 h4
    unfold scanStep
    cases hi : inside n with
    | false =>
      simp only [Bool.false_eq_true, if_false, List.range_succ, List.filter_append,
        List.filter_cons, hi, List.filter_nil, List.append_nil]
      exact ⟨h1, by omega, h3, h4⟩
    | true =>
      simp only [if_true, List.range_succ, List.filter_append, List.filter_cons, hi,
        List.filter_nil, List.length_set, List.length_append, List.length_singleton]
      refine ⟨h1, by omega, by omega, ?_⟩
      have hidx : n - s.corr = s.pts := by omega
      have hlt : s.pts < s.shell.length := by omega
      rw [hidx, List.take_add_one, List.take_set_of_le (le_refl _), h4,
        List.getElem?_set_self hlt]
      rfl

theorem map_range_getElem {α β : Type} (l : List α) (q : α → Bool) (f : α → β) (d : β) :
    ((List.range l.length).filter fun i => (l[i]?).any q).map (fun j => ((l[j]?).map f).getD d) =
      (l.filter q).map f := by
  induction l with
  | nil => rfl
  | cons a l ih =>
    rw [List.length_cons, List.range_succ_eq_map]
    have hshift : ((List.map Nat.succ (List.range l.length)).filter fun i => ((a :: l)[i]?).any q).map
          (fun j => (((a :: l)[j]?).map f).getD d) =
        ((List.range l.length).filter fun i => (l[i]?).any q).map
          (fun j => ((l[j]?).map f).getD d) := by
      rw [List.filter_map, List.map_map]; rfl
    simp only [List.filter_cons, List.getElem?_cons_zero, Option.any_some]
    by_cases hq : q a = true
    · rw [if_pos hq, if_pos hq, List.map_cons, List.map_cons, hshift, ih]
      simp
    · rw [if_neg hq, if_neg hq, hshift, ih]

theorem foldl_add {α : Type} (l : List α) (f : α → ℝ) (a : ℝ) :
    l.foldl (fun acc n => acc + f n) a = a + (l.map f).sum := by
  induction l generalizing a with
  | nil => simp
  | cons x l ih => simp [ih]; ring

/-- The accumulation over the compacted list is the sum over the particles in the bin. -/
theorem accumulate_scan (ps : List (Particle ℝ)) (q : Particle ℝ → Bool) (shell : List Nat)
    (hlen : ps.length ≤ shell.length) (f : ℝ → ℝ) (inside : Nat → Bool)
    (hin : inside = fun i => (ps[i]?).any q) :
    accumulate ps (scan inside ps.length shell) f = ((ps.filter q).map fun p => f p.mass).sum ∧
    (scan inside ps.length shell).shell.length = shell.length ∧
    (scan inside ps.length shell).pts = (ps.filter q).length := by
  obtain ⟨h1, -, h3, h4⟩ := scan_inv inside ps.length shell hlen
  have hsum : accumulate ps (scan inside ps.length shell) f =
      ((ps.filter q).map fun p => f p.mass).sum := by
    unfold accumulate
    have hmap : (List.range (scan inside ps.length shell).pts).map (fun n =>
        f ((((scan inside ps.length shell).shell[n]?).map (massAt ps)).getD 0)) = ((scan inside ps.length shell).shell.take (scan inside ps.length shell).pts).map
        (fun j => f (massAt ps j)) := by
      apply List.ext_getElem?
      intro i
      simp only [List.getElem?_map, List.getElem?_take]
      have hp : (scan inside ps.length shell).pts ≤ (scan inside ps.length shell).shell.length := by
        rw [h3, h1]
        exact (List.length_filter_le _ _).trans (by simpa using hlen)
      by_cases hi : i < (scan inside ps.length shell).pts
      · rw [List.getElem?_range hi, if_pos hi]
        simp only [Option.map_some]
        rw [List.getElem?_eq_getElem (by omega)]
        simp
      · rw [if_neg hi, List.getElem?_eq_none (by simpa using hi)]; rfl
    rw [foldl_add (List.range (scan inside ps.length shell).pts) (fun n =>
        f ((((scan inside ps.length shell).shell[n]?).map (massAt ps)).getD 0)) 0, zero_add, hmap, h4, hin]
    have := map_range_getElem ps q (fun p => f p.mass) (f 0)
    rw [← this]
    congr 1
    apply List.map_congr_left
    intro j _
    unfold massAt
    cases ps[j]? <;> rfl
  refine ⟨hsum, h1, ?_⟩
  rw [h3, hin]
  have := congrArg List.length (map_range_getElem ps q (fun p => p.mass) 0)
  simpa using this

/-- A loop which appends one value per iteration and hands a scratch array on. -/
theorem foldl_scratch {α β : Type} (l : List α) (step : List Nat → α → β × List Nat) (spec : α → β)
    (n : Nat) (hstep : ∀ sh a, n ≤ sh.length → (step sh a).1 = spec a ∧ n ≤ (step sh a).2.length)
    (acc : List β) (sh : List Nat) (hsh : n ≤ sh.length) :
    (l.foldl (fun st a => (st.1 ++ [(step st.2 a).1], (step st.2 a).2)) (acc, sh)).1 =
      acc ++ l.map spec := by
  induction l generalizing acc sh with
  | nil => simp
  | cons a l ih =>
    simp only [List.foldl_cons]
    obtain ⟨h1, h2⟩ := hstep sh a hsh
    rw [ih _ _ h2, h1]
    simp

/-- Indexing consecutive pairs is zipping with the tail. -/
theorem range_pairs {β : Type} (l : List ℝ) (f : ℝ → ℝ → β) :
    (List.range (l.length - 1)).map (fun r => f (at0 l r) (at0 l (r + 1))) =
      (l.zip l.tail).map fun e => f e.1 e.2 := by
  cases l with
  | nil => rfl
  | cons a l =>
    simp only [List.length_cons, Nat.add_sub_cancel, List.tail_cons]
    induction l generalizing a with
    | nil => rfl
    | cons b l ih =>
      rw [List.length_cons, List.range_succ_eq_map, List.map_cons, List.map_map]
      simp only [List.zip_cons_cons, List.map_cons]
      rw [← ih b]
      rfl

theorem range_single {β : Type} (l : List ℝ) (f : ℝ → β) :
    (List.range l.length).map (fun r => f (at0 l r)) = l.map f := by
  induction l with
  | nil => rfl
  | cons a l ih =>
    rw [List.length_cons, List.range_succ_eq_map, List.map_cons, List.map_map, List.map_cons, ← ih]
    rfl

/-! ## The profiles in closed form -/

/-- Membership of a particle in a spherical shell. -/
noncomputable def qSph (center : Vec ℝ) (r200 lo hi : ℝ) (p : Particle ℝ) : Bool :=
  decide (dist2 center p.pos < (hi * r200) ^ 2 ∧ dist2 center p.pos ≥ (lo * r200) ^ 2)

/-- Membership of a particle in a ball. -/
noncomputable def qBall (center : Vec ℝ) (r200 r : ℝ) (p : Particle ℝ) : Bool :=
  decide (dist2 center p.pos < (r * r200) ^ 2)

/-- Membership of a particle in an ellipsoidal shell. -/
noncomputable def qEll (center : Vec ℝ) (bin : Frame × Axes × Axes) (p : Particle ℝ) : Bool :=
  decide (level bin.1 center bin.2.2 p.pos < 1 ∧ level bin.1 center bin.2.1 p.pos ≥ 1)

theorem densProfSph_eq (ps : List (Particle ℝ)) (center : Vec ℝ) (r200 : ℝ) (edges : List ℝ)
    (shell : List Nat) (hlen : ps.length ≤ shell.length) :
    (densProfSph ps center r200 edges shell).1 = (edges.zip edges.tail).map fun e =>
      ((ps.filter (qSph center r200 e.1 e.2)).map fun p => p.mass /
        (4 / 3 * Real.pi * ((e.2 * r200) ^ 3 - (e.1 * r200) ^ 3))).sum := by
  unfold densProfSph
  have := foldl_scratch (List.range (edges.length - 1)) (fun sh r =>
    (accumulate ps (scan (inSph ps center r200 (at0 edges r) (at0 edges (r + 1))) ps.length sh)
      (fun m => m / (4 / 3 * Real.pi * ((at0 edges (r + 1) * r200) ^ 3 - (at0 edges r * r200) ^ 3))),
     (scan (inSph ps center r200 (at0 edges r) (at0 edges (r + 1))) ps.length sh).shell))
    (fun r => ((ps.filter (qSph center r200 (at0 edges r) (at0 edges (r + 1)))).map fun p => p.mass /
        (4 / 3 * Real.pi * ((at0 edges (r + 1) * r200) ^ 3 - (at0 edges r * r200) ^ 3))).sum)
    ps.length (fun sh r hsh => by
      obtain ⟨h1, h2, -⟩ := accumulate_scan ps (qSph center r200 (at0 edges r) (at0 edges (r + 1))) sh
        hsh (fun m => m / (4 / 3 * Real.pi * ((at0 edges (r + 1) * r200) ^ 3 - (at0 edges r * r200) ^ 3)))
        (inSph ps center r200 (at0 edges r) (at0 edges (r + 1))) rfl
      exact ⟨h1, by rw [h2]; exact hsh⟩) [] shell hlen
  rw [List.nil_append, range_pairs edges (fun lo hi => ((ps.filter (qSph center r200 lo hi)).map
    fun p => p.mass / (4 / 3 * Real.pi * ((hi * r200) ^ 3 - (lo * r200) ^ 3))).sum)] at this
  exact this

theorem menclSph_eq (ps : List (Particle ℝ)) (center : Vec ℝ) (r200 : ℝ) (radii : List ℝ)
    (shell : List Nat) (hlen : ps.length ≤ shell.length) :
    (menclSph ps center r200 radii shell).1 = radii.map fun r =>
      ((ps.filter (qBall center r200 r)).map fun p => p.mass).sum := by
  unfold menclSph
  have := foldl_scratch (List.range radii.length) (fun sh r =>
    (accumulate ps (scan (inBall ps center r200 (at0 radii r)) ps.length sh) (fun m => m),
     (scan (inBall ps center r200 (at0 radii r)) ps.length sh).shell))
    (fun r => ((ps.filter (qBall center r200 (at0 radii r))).map fun p => p.mass).sum)
    ps.length (fun sh r hsh => by
      obtain ⟨h1, h2, -⟩ := accumulate_scan ps (qBall center r200 (at0 radii r)) sh
        hsh (fun m => m) (inBall ps center r200 (at0 radii r)) rfl
      exact ⟨h1, by rw [h2]; exact hsh⟩) [] shell hlen
  rw [List.nil_append, range_single radii (fun r => ((ps.filter (qBall center r200 r)).map
    fun p => p.mass).sum)] at this
  exact this

theorem densProfEll_eq (ps : List (Particle ℝ)) (center : Vec ℝ) (bins : List (Frame × Axes × Axes))
    (shell : List Nat) (hlen : ps.length ≤ shell.length) :
    (densProfEll ps center bins shell).1 = bins.map fun bin =>
      if (ps.filter (qEll center bin)).length ≠ 0 then
        some ((ps.filter (qEll center bin)).map fun p => p.mass /
          (4 / 3 * Real.pi * bin.2.2.a * bin.2.2.b * bin.2.2.c -
            4 / 3 * Real.pi * bin.2.1.a * bin.2.1.b * bin.2.1.c)).sum
      else none := by
  unfold densProfEll
  have := foldl_scratch bins (fun sh bin =>
    (if (scan (inEll ps center bin.1 bin.2.1 bin.2.2) ps.length sh).pts ≠ 0 then
      some (accumulate ps (scan (inEll ps center bin.1 bin.2.1 bin.2.2) ps.length sh)
      (fun m => m / (4 / 3 * Real.pi * bin.2.2.a * bin.2.2.b * bin.2.2.c -
            4 / 3 * Real.pi * bin.2.1.a * bin.2.1.b * bin.2.1.c))) else none,
     (scan (inEll ps center bin.1 bin.2.1 bin.2.2) ps.length sh).shell))
    (fun bin => if (ps.filter (qEll center bin)).length ≠ 0 then
        some ((ps.filter (qEll center bin)).map fun p => p.mass /
          (4 / 3 * Real.pi * bin.2.2.a * bin.2.2.b * bin.2.2.c -
            4 / 3 * Real.pi * bin.2.1.a * bin.2.1.b * bin.2.1.c)).sum
      else none)
    ps.length (fun sh bin hsh => by
      obtain ⟨h1, h2, h3⟩ := accumulate_scan ps (qEll center bin) sh
        hsh (fun m => m / (4 / 3 * Real.pi * bin.2.2.a * bin.2.2.b * bin.2.2.c -
            4 / 3 * Real.pi * bin.2.1.a * bin.2.1.b * bin.2.1.c))
        (inEll ps center bin.1 bin.2.1 bin.2.2) rfl
      refine ⟨?_, by rw [h2]; exact hsh⟩
      simp only [h1, h3]) [] shell hlen
  rw [List.nil_append] at this
  exact this

end Verif.Binning
