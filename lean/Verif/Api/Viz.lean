import Verif.Api.ShapesProps
import Verif.Mock.PointProps

/-!
# Pictures of shapes (C111)

`vizLocalShapes`, `vizGlobalShapes` (`cosmic_profiles/shape_profs/shape_profs_classes.pyx:147-319`) on
process 0, for objects made from arrays without stored catalogue: what is handed to matplotlib.  Not
modelled: colours, marker sizes, axis limits, file names.  As in `Api/Shapes.lean` NaN is `none`.
-/

set_option linter.unusedSectionVars false

namespace Verif.Api

open Verif.Units Verif.Catalogue Verif.Periodic Verif.Par Verif.Shapes

/-! ## Model -/

/-- A point or a vector handed to matplotlib. -/
abbrev NanVec := Fin 3 → Option ℝ

/-- `v/np.linalg.norm(v)`, shape_profs_classes.pyx:204: NaN if a component is NaN or the norm is zero. -/
noncomputable def unitVec (v : NanVec) : NanVec := fun i =>
  (v 0).bind fun x => (v 1).bind fun y => (v 2).bind fun z =>
    if Real.sqrt (x ^ 2 + y ^ 2 + z ^ 2) = 0 then none
    else (v i).map fun w => w / Real.sqrt (x ^ 2 + y ^ 2 + z ^ 2)

/-- `np.dot(rot_matrix, p) + center`, the columns of the matrix being the axes,
shape_profs_classes.pyx:204-211. -/
noncomputable def placed (u v w : NanVec) (centre : Vec ℝ) (p : ℝ × ℝ × ℝ) : NanVec := fun i =>
  (u i).bind fun a => (v i).bind fun b => (w i).map fun c =>
    a * p.1 + b * p.2.1 + c * p.2.2 + centre i

/-- A drawn ellipsoid: its points and the numbers `a, b, c` of the legend. -/
structure DrawnEll where
  points : List NanVec
  legend : Option ℝ × Option ℝ × Option ℝ

/-- The three lengths `d, q*d, s*d`. -/
noncomputable def semiAxes (e : ShapeEntry) : Option ℝ × Option ℝ × Option ℝ :=
  (e.d, e.q.bind fun q => e.d.map fun d => q * d, e.s.bind fun s => e.d.map fun d => s * d)

/-- `ell = fibonacci_ellipsoid(d, q*d, s*d, samples=500)`, rotated and moved,
shape_profs_classes.pyx:203-211, 222-230, 296-303.  If one of the three lengths is NaN, each coordinate
of each rotated point contains a term NaN. -/
noncomputable def drawEllipsoid (e : ShapeEntry) (centre : Vec ℝ) : DrawnEll :=
  ⟨match semiAxes e with
    | (some a, some b, some c) =>
      match Mock.fibonacciEllipsoid a b c 500 with
      | .ok pts => pts.map (placed (unitVec e.major) (unitVec e.inter) (unitVec e.minor) centre)
      | .error _ => []
    | _ => List.replicate 500 fun _ => none,
   semiAxes e⟩

/-- One arrow of `ax.quiver(*center, ...)`, starting at the centre. -/
structure Arrow where
  direction : NanVec
  length : Option ℝ
  label : Option String

/-- The three arrows of one entry, shape_profs_classes.pyx:213-219, 231-233, 304-306. -/
noncomputable def arrowsOf (e : ShapeEntry) (label : String → Option String) : List Arrow :=
  [⟨e.major, (semiAxes e).1, label "Major"⟩, ⟨e.inter, (semiAxes e).2.1, label "Intermediate"⟩,
    ⟨e.minor, (semiAxes e).2.2, label "Minor"⟩]

/-- Indexing of a sequence as in python; `none` = IndexError. -/
def pyIndex {α : Type} (l : List α) (i : Int) : Option α :=
  if 0 ≤ i then l[i.toNat]?
  else if -i ≤ l.length then l[(l.length + i).toNat]? else none

/-- What is drawn of one object. `inner` is the second ellipsoid of local shapes with its arrows. -/
structure Figure where
  particles : List (Vec ℝ)
  centre : Vec ℝ
  ellipsoid : DrawnEll
  arrows : List Arrow
  inner : Option (DrawnEll × List Arrow)

/-- `np.arange(D_BINS-D_BINS//5, D_BINS)`, shape_profs_classes.pyx:212. -/
def arrowIndices (dBins : Int) : List Int :=
  (List.range (dBins / 5).toNat).map fun k : Nat => dBins - dBins / 5 + (k : Int)

/-- Shapes of `vizLocalShapes`, shape_profs_classes.pyx:203-233, with `D_BINS` one less than the number
of radii. `-D_BINS//5` rounds towards minus infinity. -/
noncomputable def localFigure (row : List ShapeEntry) (centre : Vec ℝ) (particles : List (Vec ℝ)) :
    Option Figure :=
  let dBins : Int := row.length - 1
  (pyIndex row (-1)).bind fun last =>
  ((arrowIndices dBins).mapM fun i => (pyIndex row i).map fun e =>
    arrowsOf e fun l => if i = dBins - 1 then some l else none).bind fun arrows =>
  (pyIndex row ((-dBins) / 5)).map fun special =>
    ⟨particles, centre, drawEllipsoid last centre, arrows.flatten,
      some (drawEllipsoid special centre, arrowsOf special fun l => some (l ++ " " ++ toString ((-dBins) / 5)))⟩

/-- Shapes of `vizGlobalShapes`, shape_profs_classes.pyx:296-306. -/
noncomputable def globalFigure (row : List ShapeEntry) (centre : Vec ℝ) (particles : List (Vec ℝ)) :
    Option Figure :=
  (pyIndex row (-1)).bind fun last => (pyIndex row 0).map fun first =>
    ⟨particles, centre, drawEllipsoid last centre, arrowsOf first some, none⟩

/-- The particles drawn, shape_profs_classes.pyx:184-201, 277-294: `pick` are the 5000 particles drawn by
`default_rng(seed=42).choice` if there are more. -/
noncomputable def drawnParticles (choose pick : Nat → List Nat) (fac : ℝ) (o : Obj) (z : Nat) :
    Option (List (Vec ℝ)) :=
  ((objSlice o.idxCat o.sizes z).bind (gather o)).map fun ps =>
    let xyz := (respectPBCNoRef (choose ps.length) (ps.map fun p => p.pos) o.box).map
      fun x a => x a * fac
    if 5000 < xyz.length then (pick xyz.length).filterMap fun j => xyz[j]? else xyz

/-- Exceptions of `vizLocalShapes` and `vizGlobalShapes` (shape_profs_classes.pyx:151-340): those of the shapes, or an index out of range. -/
inductive VizErr
  | shape (e : ShapeErr)
  | index
  deriving DecidableEq

/-- `vizLocalShapes` and `vizGlobalShapes` as a relation: possible pictures, one for each selected object.
Both call the same `_getShapeCat*Base` as `getShapeCat*` and convert to output units in the same way, so
the entries drawn are those of a reply `res` of `getShapeCat*`.  The centres are those around which the
shapes have been determined, moved into the box (shape_profs_algos.pyx:627, 734). -/
inductive VizShapes (c : Cfg ℝ) (sol : Solver) (choose pick : Nat → List Nat) (limit : Nat) (o : Obj)
    (katz : Katz) (whole : Bool) (sel : List Int) : Except VizErr (List Figure) → Prop
  | failed (e : ShapeErr) (h : GetShapeCat c sol choose limit o katz whole sel (.error e)) :
      VizShapes c sol choose pick limit o katz whole sel (.error (.shape e))
  | drawn (res : List (List ShapeEntry)) (hres : GetShapeCat c sol choose limit o katz whole sel (.ok res))
      (parts : List (List (Particle ℝ))) (h : selectParticles o sel = .ok parts)
      (centers : List (Vec ℝ)) (hc : parts.mapM (shapeCentre choose limit o.box o.center) = some centers)
      (l m : ℝ) (hu : internalLM c = .ok (l, m))
      (out : Except VizErr (List Figure))
      (hout : out = (((sel.zip (res.zip (recentreObject centers o.box))).mapM fun x =>
        (drawnParticles choose pick (l / c.outL) o x.1.toNat).bind
          ((if whole then globalFigure else localFigure) x.2.1 fun a => x.2.2 a * (l / c.outL))).elim
        (.error .index) .ok)) :
      VizShapes c sol choose pick limit o katz whole sel out

/-! ## Specification -/

/-- The point `x` lies on the surface of the ellipsoid around `centre` with semi-axes `a, b, c` along the
directions `major, inter, minor`. -/
def OnSurface (centre major inter minor : Vec ℝ) (a b c : ℝ) (x : Vec ℝ) : Prop :=
  (dot major (x - centre) / a) ^ 2 + (dot inter (x - centre) / b) ^ 2 +
    (dot minor (x - centre) / c) ^ 2 = 1

/-- The ellipsoid is visible: 500 different points, all of them on the surface. -/
def ShowsEllipsoid (g : DrawnEll) (centre major inter minor : Vec ℝ) (a b c : ℝ) : Prop :=
  ∃ pts : List (Vec ℝ), g.points = pts.map (fun x i => some (x i)) ∧ pts.length = 500 ∧ pts.Nodup ∧
    ∀ x ∈ pts, OnSurface centre major inter minor a b c x

/-- Nothing is visible. -/
def Invisible (g : DrawnEll) : Prop := ∀ x ∈ g.points, ∀ i, x i = none

/-! ## Points -/

theorem fibonacciEllipsoid_nodup (a b c : ℝ) (hb : b ≠ 0) (samples : Nat) (hs : 2 ≤ samples)
    (pts : List (ℝ × ℝ × ℝ)) (h : Mock.fibonacciEllipsoid a b c samples = .ok pts) : pts.Nodup := by
  have hpt : ∀ i ∈ List.range samples, Mock.fibPoint a b c samples i = .ok
      (Real.cos (Mock.golden * i) * Real.sqrt (1 - (1 - (i : ℝ) / ((samples : ℝ) - 1) * 2) *
          (1 - (i : ℝ) / ((samples : ℝ) - 1) * 2)) * a,
        (1 - (i : ℝ) / ((samples : ℝ) - 1) * 2) * b,
        Real.sin (Mock.golden * i) * Real.sqrt (1 - (1 - (i : ℝ) / ((samples : ℝ) - 1) * 2) *
          (1 - (i : ℝ) / ((samples : ℝ) - 1) * 2)) * c) := by
    intro i _
    unfold Mock.fibPoint
    rw [if_neg (by omega)]
  unfold Mock.fibonacciEllipsoid at h
  rw [Mock.mapM_ok _ _ _ hpt] at h
  have h := Except.ok.inj h
  subst h
  have hpos : 0 < (samples : ℝ) - 1 := by
    have : (2 : ℝ) ≤ samples := by exact_mod_cast hs
    linarith
  apply List.Nodup.map_on _ List.nodup_range
  intro i _ j _ h
  have h2 : (1 - (i : ℝ) / ((samples : ℝ) - 1) * 2) * b = (1 - (j : ℝ) / ((samples : ℝ) - 1) * 2) * b :=
    congrArg (fun q : ℝ × ℝ × ℝ => q.2.1) h
  have h2 := mul_right_cancel₀ hb h2
  have h3 : (i : ℝ) / ((samples : ℝ) - 1) = (j : ℝ) / ((samples : ℝ) - 1) := by linarith
  rw [div_left_inj' hpos.ne'] at h3
  exact_mod_cast h3

theorem unitVec_of_unit (v : Vec ℝ) (h : dot v v = 1) :
    unitVec (fun i => some (v i)) = fun i => some (v i) := by
  have : v 0 ^ 2 + v 1 ^ 2 + v 2 ^ 2 = 1 := by
    unfold dot at h; nlinarith
  funext i
  simp [unitVec, this]

theorem placed_some (u v w centre : Vec ℝ) (p : ℝ × ℝ × ℝ) :
    placed (fun i => some (u i)) (fun i => some (v i)) (fun i => some (w i)) centre p =
      fun i => some (u i * p.1 + v i * p.2.1 + w i * p.2.2 + centre i) := rfl

/-- An entry without NaN whose axes are orthonormal is drawn as it is. -/
theorem drawEllipsoid_shows (e : ShapeEntry) (centre major inter minor : Vec ℝ) (d q s : ℝ)
    (hd : e.d = some d) (hq : e.q = some q) (hs : e.s = some s) (hmaj : e.major = fun i => some (major i))
    (hint : e.inter = fun i => some (inter i)) (hmin : e.minor = fun i => some (minor i))
    (ho : Orthonormal major inter minor) (hd0 : d ≠ 0) (hq0 : q ≠ 0) (hs0 : s ≠ 0) :
    ShowsEllipsoid (drawEllipsoid e centre) centre major inter minor d (q * d) (s * d) := by
  obtain ⟨h1, h2, h3, h12, h13, h23⟩ := ho
  have hsemi : semiAxes e = (some d, some (q * d), some (s * d)) := by
    simp [semiAxes, hd, hq, hs]
  obtain ⟨pts, hp, hlen, hon⟩ := Mock.C66_on_ellipsoid_partial d (q * d) (s * d) hd0 (mul_ne_zero hq0 hd0)
    (mul_ne_zero hs0 hd0) 500 (by norm_num)
  have hnd := fibonacciEllipsoid_nodup d (q * d) (s * d) (mul_ne_zero hq0 hd0) 500 (by norm_num) pts hp
  have hpts : (drawEllipsoid e centre).points =
      pts.map (placed (unitVec e.major) (unitVec e.inter) (unitVec e.minor) centre) := by
    unfold drawEllipsoid
    rw [hsemi]
    simp only [hp]
  rw [hmaj, hint, hmin, unitVec_of_unit _ h1, unitVec_of_unit _ h2, unitVec_of_unit _ h3] at hpts
  -- coordinates along the axes
  have hdot : ∀ p : ℝ × ℝ × ℝ,
      dot major ((fun i => major i * p.1 + inter i * p.2.1 + minor i * p.2.2 + centre i) - centre) = p.1 ∧
      dot inter ((fun i => major i * p.1 + inter i * p.2.1 + minor i * p.2.2 + centre i) - centre) = p.2.1 ∧
      dot minor ((fun i => major i * p.1 + inter i * p.2.1 + minor i * p.2.2 + centre i) - centre) = p.2.2 := by
    intro p
    have e1 : ∀ i, ((fun i => major i * p.1 + inter i * p.2.1 + minor i * p.2.2 + centre i) - centre) i =
        major i * p.1 + inter i * p.2.1 + minor i * p.2.2 := fun i => by simp
    unfold dot at *
    simp only [e1]
    refine ⟨?_, ?_, ?_⟩
    · linear_combination p.1 * h1 + p.2.1 * h12 + p.2.2 * h13
    · linear_combination p.1 * h12 + p.2.1 * h2 + p.2.2 * h23
    · linear_combination p.1 * h13 + p.2.1 * h23 + p.2.2 * h3
  refine ⟨pts.map fun p i => major i * p.1 + inter i * p.2.1 + minor i * p.2.2 + centre i, ?_, by simp [hlen],
    ?_, ?_⟩
  · rw [hpts, List.map_map]
    apply List.map_congr_left
    intro p _
    rw [placed_some]
    rfl
  · apply List.Nodup.map_on _ hnd
    intro p _ p' _ heq
    obtain ⟨a1, a2, a3⟩ := hdot p
    obtain ⟨b1, b2, b3⟩ := hdot p'
    rw [heq] at a1 a2 a3
    exact Prod.ext (a1.symm.trans b1) (Prod.ext (a2.symm.trans b2) (a3.symm.trans b3))
  · intro x hx
    obtain ⟨p, hp', rfl⟩ := List.mem_map.1 hx
    obtain ⟨a1, a2, a3⟩ := hdot p
    unfold OnSurface
    rw [a1, a2, a3]
    exact hon p hp'

theorem unitVec_nan (v : NanVec) (j : Fin 3) (h : v j = none) (i : Fin 3) : unitVec v i = none := by
  unfold unitVec
  fin_cases j <;> cases hx : v 0 <;> cases hy : v 1 <;> cases hz : v 2 <;> simp_all

/-- Nothing is visible of an entry one of whose axes has a component NaN. -/
theorem drawEllipsoid_invisible (e : ShapeEntry) (centre : Vec ℝ)
    (h : ∃ j, e.major j = none ∨ e.inter j = none ∨ e.minor j = none) :
    Invisible (drawEllipsoid e centre) := by
  intro x hx i
  obtain ⟨j, hj⟩ := h
  unfold drawEllipsoid at hx
  dsimp only at hx
  split at hx
  · split at hx
    · obtain ⟨p, -, rfl⟩ := List.mem_map.1 hx
      unfold placed
      rcases hj with hj | hj | hj
      · simp [unitVec_nan _ j hj]
      · simp [unitVec_nan _ j hj]
      · simp [unitVec_nan _ j hj]
    · cases hx
  · rw [List.eq_of_mem_replicate hx]

end Verif.Api
