import Verif.Api.ShapesProps
import Verif.Shapes.Tolerance

/-!
# The flag `is_conv` of a shape (C159)

The documentation (docs/source/shape_estimation/index.rst) advises to keep the entries of a shape catalogue whose field `is_conv` is
`True` (shape_profs_classes.pyx:106, 142: `~np.isnan(q)`).  Model: `entryOf`, `GetShapeCat` (Api/Shapes.lean).
-/

namespace Verif.Api

open Verif.Units Verif.Catalogue Verif.Periodic Verif.Par Verif.Shapes

/-! ## Specification -/

/-- Nothing but NaN, except perhaps for the radius. -/
def NoShape (e : ShapeEntry) : Prop :=
  e.q = none ∧ e.s = none ∧ ∀ a, e.major a = none ∧ e.inter a = none ∧ e.minor a = none

/-- A genuine shape at radius `d`: ordered positive axis ratios and orthonormal axes, of which vanishing components are shown as
NaN. -/
def IsShape (d : ℝ) (e : ShapeEntry) : Prop :=
  e.d = some d ∧ ∃ (q s : ℝ) (major inter minor : Vec ℝ), e.q = some q ∧ e.s = some s ∧ 0 < s ∧ s ≤ q ∧ q ≤ 1 ∧
    Orthonormal major inter minor ∧
    ∀ a, e.major a = shown (major a) ∧ e.inter a = shown (inter a) ∧ e.minor a = shown (minor a)

/-! ## C159 -/

/-- C159 (partial).  Whatever the objects (crossing faces of the box or not), the selection and the schedule: if a call for shapes
returns a catalogue, an entry flagged as converged is a genuine shape at the wanted radius (in output units), and an entry which is not
flagged contains no axis ratio and no component of an axis, and no radius either if the tolerance is below 1.  Missing: no component of
the axes of a flagged entry is NaN (`C159_nan_refuted`). -/
theorem C159_flag_partial (c c' : Cfg ℝ) (hc : c.Pos) (hc' : c'.Pos) (hh : c'.h = c.h)
    (xyz : List (Vec ℝ)) (masses : List ℝ) (box : ℝ) (objs : List (List Nat × ℝ)) (minPtcs : Int)
    (hmin : 1 ≤ minPtcs) (center : Center) (hs : Sensible xyz masses box objs)
    (hr200 : ∀ o ∈ objs, 0 < o.2) (sol : Solver) (hsol : GoodSolver sol)
    (choose : Nat → List Nat) (limit : Nat) (o : Obj)
    (ho : construct c ⟨xyz, masses, .nested (objs.map Prod.fst), .array (objs.map Prod.snd), box,
      minPtcs, center⟩ = .ok o)
    (katz : Katz) (hradii : ∀ r ∈ katz.radii, 0 < r) (whole : Bool)
    (sel : List Int) (hsel : GoodSelection sel (resolved minPtcs objs).length)
    (res : List (List ShapeEntry)) (hrun : GetShapeCat c' sol choose limit o katz whole sel (.ok res))
    (k : Nat) (z : Int) (obj : List Nat × ℝ) (hk : sel[k]? = some z)
    (hobj : (resolved minPtcs objs)[z.toNat]? = some obj)
    (row : List ShapeEntry) (hrow : res[k]? = some row) (b : Nat) (e : ShapeEntry) (he : row[b]? = some e) :
    (e.conv = true ↔ IsShape ((wantedVolume katz whole obj.2 (6 * mpch c.h / c.inL) b).1 * c.inL / c'.outL) e) ∧
    (e.conv = false ↔ NoShape e) ∧
    (katz.tol < 1 → (e.conv = false ↔ NoShape e ∧ e.d = none)) := by
  have hl := mpch_pos hc.h
  have hms := msunh10_pos hc.h
  have hfp : 0 < c.inL / mpch c.h := div_pos hc.inL hl
  have hgp : 0 < c.inM / msunh10 c.h := div_pos hc.inM hms
  -- a genuine shape is not the absence of one
  have excl : ∀ d, IsShape d e → ¬ NoShape e := by
    rintro d ⟨-, q, s, x, y, w, h1, -⟩ ⟨h2, -⟩
    rw [h1] at h2; cases h2
  suffices h : (e.conv = true ∧ IsShape ((wantedVolume katz whole obj.2 (6 * mpch c.h / c.inL) b).1 * c.inL / c'.outL) e) ∨
      (e.conv = false ∧ NoShape e ∧ (katz.tol < 1 → e.d = none)) by
    rcases h with ⟨h1, h2⟩ | ⟨h1, h2, h3⟩
    · refine ⟨⟨fun _ => h2, fun _ => h1⟩, ⟨fun h => ?_, fun h => absurd h (excl _ h2)⟩,
        fun _ => ⟨fun h => ?_, fun h => absurd h.1 (excl _ h2)⟩⟩
      · rw [h1] at h; cases h
      · rw [h1] at h; cases h
    · refine ⟨⟨fun h => ?_, fun h => absurd h2 (excl _ h)⟩, ⟨fun _ => h2, fun _ => h1⟩,
        fun ht => ⟨fun _ => ⟨h2, h3 ht⟩, fun _ => h1⟩⟩
      rw [h1] at h; cases h
  rcases shape_rows c c' xyz masses box objs minPtcs hmin center hs sol choose limit o ho katz whole
    sel hsel _ hrun with h | ⟨rows, hrlen, hout, hrows⟩
  · cases h.1
  set f := c.inL / mpch c.h with hf
  set g := c.inM / msunh10 c.h with hg
  rcases hout with ⟨h, -⟩ | ⟨res', hres', -, hget⟩
  · cases h
  obtain rfl := Except.ok.inj hres'
  obtain ⟨hpne, v, hcv, hrk⟩ := hrows k z obj hk hobj
  obtain ⟨ms, hms', hr⟩ := hget k _ hrk
  rw [hrow] at hr
  obtain rfl := Option.some.inj hr
  rw [List.getElem?_map] at he
  obtain ⟨m, hm, rfl⟩ := Option.map_eq_some_iff.1 he
  have hob : obj ∈ objs := List.mem_of_mem_filter (List.mem_of_getElem? hobj)
  have hR := hr200 obj hob
  have hmpos : ∀ p ∈ (particlesOf xyz masses obj.1).map (scale f g), 0 < p.mass := by
    intro p hp
    obtain ⟨q, hq, rfl⟩ := List.mem_map.1 hp
    exact mul_pos (hs.masses_pos _ (mem_particlesOf hq).2) hgp
  by_cases htol : katz.tol < 1
  · rcases aloneShapes_outcome (katz.settings sol (box * f)) whole ⟨((particlesOf xyz masses obj.1).map (scale f g)).map
        fun p => ⟨p.pos, 0, p.mass⟩, v, obj.2 * f⟩ hsol (positionPts_mass _ _ (by
          intro p hp
          obtain ⟨q, hq, rfl⟩ := List.mem_map.1 hp
          exact hmpos q hq)) htol (mul_pos hR hfp).ne' with ⟨ms', h1, h2, h3⟩ | ⟨hnone, -⟩
    · rw [hms'] at h1
      obtain rfl := Option.some.inj h1
      have hblt : b < columns (katz.settings sol (box * f)) (kindOf whole) := by
        rw [← h2]; exact (List.getElem?_eq_some_iff.1 hm).1
      rcases h3 b m hm with hcl | ⟨rfl, -⟩
      · left
        obtain ⟨n, e1, e', -, -, -, ⟨horth, a', b', c'', hcp, hcb, hba, eq, es, -⟩, -, rfl⟩ := hcl
        have ha : 0 < a' := by linarith
        have hb : 0 < b' := by linarith
        have hq : 0 < e'.q := by rw [eq]; exact div_pos hb ha
        have hs' : 0 < e'.s := by rw [es]; exact div_pos hcp ha
        have hvol : (volumeAt (katz.settings sol (box * f)) whole (obj.2 * f) b).1 =
            (wantedVolume katz whole obj.2 (6 * mpch c.h / c.inL) b).1 * f := by
          unfold volumeAt wantedVolume
          cases whole with
          | true =>
            simp only [if_true, Katz.settings]
            rw [hf]
            have := hc.inL.ne'
            field_simp
          | false =>
            simp only [Bool.false_eq_true, if_false, shellAt, Katz.settings]
            ring
        have hdpos : 0 < (wantedVolume katz whole obj.2 (6 * mpch c.h / c.inL) b).1 := by
          unfold wantedVolume
          cases whole with
          | true =>
            simp only [if_true]
            have := hc.inL
            positivity
          | false =>
            simp only [Bool.false_eq_true, if_false]
            have hblt : b < katz.radii.length := hblt
            rw [List.getElem?_eq_getElem hblt]
            exact mul_pos hR (hradii _ (List.getElem_mem hblt))
        have hd : (volumeAt (katz.settings sol (box * f)) whole (obj.2 * f) b).1 ≠ 0 := by
          rw [hvol]; exact (mul_pos hdpos hfp).ne'
        refine ⟨?_, ?_, e'.q, e'.s, e'.major, e'.inter, e'.minor, ?_, ?_, hs', ?_, ?_, horth, fun a => ⟨rfl, rfl, rfl⟩⟩
        · simp [entryOf, report, nanZero, hq.ne']
        · have : (report (⟨(volumeAt (katz.settings sol (box * f)) whole (obj.2 * f) b).1, e'.q, e'.s, e'.major, e'.inter,
              e'.minor⟩ : Morph)).d = some (volumeAt (katz.settings sol (box * f)) whole (obj.2 * f) b).1 := by
            simp [report, nanZero, hd]
          show ((report (⟨(volumeAt (katz.settings sol (box * f)) whole (obj.2 * f) b).1, e'.q, e'.s, e'.major, e'.inter,
              e'.minor⟩ : Morph)).d).map _ = _
          rw [this, Option.map_some, hvol, hf, hh]
          have h1 := hc'.outL.ne'
          congr 1
          field_simp
        · simp [entryOf, report, nanZero, hq.ne']
        · simp [entryOf, report, nanZero, hs'.ne']
        · rw [eq, es]; exact div_le_div_of_nonneg_right hcb ha.le
        · rw [eq]; exact (div_le_one ha).2 hba
      · right
        refine ⟨?_, ⟨?_, ?_, ?_⟩, fun _ => ?_⟩
        · simp [entryOf, report, nanZero, Morph.zero]
        · simp [entryOf, report, nanZero, Morph.zero]
        · simp [entryOf, report, nanZero, Morph.zero]
        · intro a; simp [entryOf, report, nanZero, Morph.zero]
        · simp [entryOf, report, nanZero, Morph.zero]
    · rw [hms'] at hnone; cases hnone
  · right
    obtain ⟨h1, h2, h3⟩ := C35_large_tolerance (katz.settings sol (box * f)) (not_lt.1 htol) (kindOf whole) _ ms hms' m
      (List.mem_of_getElem? hm)
    refine ⟨?_, ⟨h1, h2, h3⟩, fun h => absurd h htol⟩
    show (report m).q.isSome = false
    rw [h1]; rfl

/-- C159 is false as stated: of the cross of `C106_cross` the entry is flagged as converged, and components of its axes are NaN;
filtering by the flag leaves NaN in the catalogue. -/
theorem C159_nan_refuted (h : ℝ) (hh : 0 < h) (sol : Solver) (hsol : GoodSolver sol)
    (choose : Nat → List Nat) (hch : ∀ n, 0 < n → ∃ j ∈ choose n, j < n) (limit : Nat) (o : Obj)
    (ho : construct ⟨mpch h, msunh10 h, 1, h, mpch h, msunh10 h, 1⟩ ⟨crossXyz, [1, 1, 1, 1, 1, 1],
      .nested [[0, 1, 2, 3, 4, 5]], .array [100], 20, 6, .com⟩ = .ok o)
    (out : Except ShapeErr (List (List ShapeEntry)))
    (hrun : GetShapeCat ⟨mpch h, msunh10 h, 1, h, mpch h, msunh10 h, 1⟩ sol choose limit o
      ⟨[1], 1 / 10, 100, 6, false, false⟩ false [0] out) :
    ∃ e : ShapeEntry, out = .ok [[e]] ∧ [[e]].map (List.filter ShapeEntry.conv) = [[e]] ∧ e.major 1 = none := by
  obtain ⟨e, h1, h2, -, -, -, h3⟩ := C106_cross 20 le_rfl h hh sol hsol choose hch limit o ho out hrun
  exact ⟨e, h1, by simp [h2], h3⟩

/-- The hypotheses of `C159_flag_partial` are met by the cross in a box of size 20: it has an object and a call with an outcome, and
by `C159_nan_refuted` this outcome is a catalogue. -/
example (h : ℝ) (hh : 0 < h) (sol : Solver) (hsol : GoodSolver sol) (choose : Nat → List Nat)
    (hch : ∀ n, 0 < n → ∃ j ∈ choose n, j < n) (limit : Nat) :
    ∃ o e, construct ⟨mpch h, msunh10 h, 1, h, mpch h, msunh10 h, 1⟩ ⟨crossXyz, [1, 1, 1, 1, 1, 1],
      .nested [[0, 1, 2, 3, 4, 5]], .array [100], 20, 6, .com⟩ = .ok o ∧
      GetShapeCat ⟨mpch h, msunh10 h, 1, h, mpch h, msunh10 h, 1⟩ sol choose limit o
        ⟨[1], 1 / 10, 100, 6, false, false⟩ false [0] (.ok [[e]]) ∧ e.conv = true := by
  have hs : Sensible crossXyz [1, 1, 1, 1, 1, 1] 20 [([0, 1, 2, 3, 4, 5], 100)] := by
    refine ⟨rfl, by norm_num, ?_, ?_, by simp, ?_⟩
    · intro x hx a
      simp only [crossXyz, List.mem_cons, List.not_mem_nil, or_false] at hx
      rcases hx with rfl | rfl | rfl | rfl | rfl | rfl <;> fin_cases a <;> norm_num
    · intro m hm
      simp only [List.mem_cons, List.not_mem_nil, or_false, or_self] at hm
      rw [hm]; norm_num
    · intro o ho i hi
      simp only [List.mem_singleton] at ho
      subst ho
      simp only [List.mem_cons, List.not_mem_nil, or_false] at hi
      simp only [crossXyz, List.length_cons, List.length_nil]
      omega
  have hres : resolved 6 [([0, 1, 2, 3, 4, 5], (100 : ℝ))] = [([0, 1, 2, 3, 4, 5], 100)] := by
    simp [resolved]
  obtain ⟨o, ho⟩ : ∃ o, construct ⟨mpch h, msunh10 h, 1, h, mpch h, msunh10 h, 1⟩ ⟨crossXyz, [1, 1, 1, 1, 1, 1],
      .nested ([([0, 1, 2, 3, 4, 5], (100 : ℝ))].map Prod.fst), .array ([([0, 1, 2, 3, 4, 5], (100 : ℝ))].map Prod.snd),
      20, 6, .com⟩ = .ok o :=
    ⟨_, construct_eq _ crossXyz _ 20 [([0, 1, 2, 3, 4, 5], 100)] 6 .com hs.lengths hs.objects⟩
  obtain ⟨out, hrun⟩ := C106_outcome_exists _ ⟨mpch h, msunh10 h, 1, h, mpch h, msunh10 h, 1⟩ crossXyz _ 20
    [([0, 1, 2, 3, 4, 5], 100)] 6 (by norm_num) .com hs sol choose limit o ho ⟨[1], 1 / 10, 100, 6, false, false⟩ false [0] (by
      rw [hres]
      refine ⟨by simp, by simp, ?_⟩
      intro z hz
      simp only [List.mem_singleton] at hz
      subst hz; simp)
  obtain ⟨e, rfl, h2, -⟩ := C106_cross 20 le_rfl h hh sol hsol choose hch limit o ho out hrun
  exact ⟨o, e, ho, hrun, h2⟩

end Verif.Api
