import Verif.Shapes.Symm
import Verif.Par.Threads
import Verif.Binning.Parallel

/-!
# Shape catalogues: all radii of one object, all objects in parallel

`calcMorphLocal`, `calcMorphGlobal`, `calcMorphLocalVelDisp`, `calcMorphGlobalVelDisp` and the
corresponding `calcObjMorph*`, `cosmic_profiles/shape_profs/shape_profs_algos.pyx:517-1240`.
-/

namespace Verif.Shapes

open Verif.Par

/-! ## Model -/

/-- The run of the algorithm for one radius. `IT_WALL + 1` evaluations of the loop condition always
suffice (C34); `none` = ZeroDivisionError. -/
noncomputable def runOne (cfg : Config) (morph : Morph) (sc : Scratch) : Option (Morph × Scratch) :=
  (runAlgo (cfg.wall.toNat + 1) cfg morph sc).join

/-- `CythonHelpers.calcLocalSpread`, helper_class.pyx:62-83 (double instead of single precision). -/
noncomputable def localSpread (pts : List Pt) : ℝ :=
  let n : ℝ := pts.length
  let mean : Vec ℝ := fun i => pts.foldl (fun acc p => acc + p.x i / n) 0
  pts.foldl (fun acc p => acc + Real.sqrt ((p.x 0 - mean 0) ^ 2 + (p.x 1 - mean 1) ^ 2 +
    (p.x 2 - mean 2) ^ 2) / n) 0

/-- Settings of the shape determination which are common to all objects. -/
structure Settings where
  tol : ℝ
  wall : Int
  itMin : Int
  reduced : Bool
  shellBased : Bool
  solver : Solver
  /-- `r_over_r200` -/
  radii : List ℝ
  /-- `SAFE` -/
  safe : ℝ
  /-- `L_BOX` -/
  box : ℝ

/-- Arguments of the run for one radius `d`. -/
def Settings.config (st : Settings) (pts : List Pt) (center srcCenter : Vec ℝ) (d : ℝ)
    (deltaD : Option ℝ) : Config :=
  ⟨pts, center, srcCenter, d, deltaD, st.tol, st.wall, st.itMin, st.reduced, st.solver⟩

/-- Radius and shell thickness number `k`, shape_profs_algos.pyx:1034-1044: the first shell is the
full ellipsoid. -/
noncomputable def shellAt (st : Settings) (r200 : ℝ) (k : Nat) : ℝ × Option ℝ :=
  let d := r200 * (st.radii[k]?.getD 0)
  (d, if st.shellBased then
      if k = 0 then some d else some (d - r200 * (st.radii[k - 1]?.getD 0))
    else none)

/-- The loop over the radii, shape_profs_algos.pyx:1037-1044; `morphs` are the columns of
`morph_info`. -/
noncomputable def shellLoop (st : Settings) (pts : List Pt) (center srcCenter : Vec ℝ) :
    List ((ℝ × Option ℝ) × Morph) → Scratch → Option (List Morph × Scratch)
  | [], sc => some ([], sc)
  | (dd, morph) :: rest, sc =>
    (runOne (st.config pts center srcCenter dd.1 dd.2) morph sc).bind fun r =>
      (shellLoop st pts center srcCenter rest r.2).map fun r' => (r.1 :: r'.1, r'.2)

/-- `calcObjMorphLocal` / `calcObjMorphLocalVelDisp`, shape_profs_algos.pyx:1020-1046 and
1155-1178. -/
noncomputable def objMorphLocal (st : Settings) (pts : List Pt) (center srcCenter : Vec ℝ) (r200 : ℝ)
    (morphs : List Morph) (sc : Scratch) : Option (List Morph × Scratch) :=
  let zeros := morphs.map fun _ => Morph.zero
  if localSpread pts = 0 then some (zeros, sc)
  else if r200 = 0 then some (zeros, sc)
  else
    shellLoop st pts center srcCenter
      (zeros.zipIdx.map fun mk => (shellAt st r200 mk.2, { mk.1 with d := (shellAt st r200 mk.2).1 })) sc

/-- `calcObjMorphGlobal` / `calcObjMorphGlobalVelDisp`, shape_profs_algos.pyx:1090-1100 and
1231-1240: one ellipsoid of radius `r200 + SAFE`. -/
noncomputable def objMorphGlobal (st : Settings) (pts : List Pt) (center srcCenter : Vec ℝ) (r200 : ℝ)
    (morphs : List Morph) (sc : Scratch) : Option (List Morph × Scratch) :=
  let zeros := morphs.map fun _ => Morph.zero
  if localSpread pts = 0 then some (zeros, sc)
  else
    shellLoop st pts center srcCenter
      (zeros.map fun m => ((r200 + st.safe, none), { m with d := r200 + st.safe })) sc

/-- The four entry points. -/
inductive Kind where
  | localShape
  | globalShape
  | localVel
  | globalVel
  deriving DecidableEq

/-- Whether the gathering loop copies the velocities into `vxyz_obj`.  `calcMorphLocalVelDisp`
(shape_profs_algos.pyx:820-825) does not; `calcMorphGlobalVelDisp` does (939). -/
def Kind.fillsVelocities : Kind → Bool
  | .globalVel => true
  | _ => false

/-- Scratch arrays of one thread: rows of `xyz_obj`, `vxyz_obj`, `m_obj`, `morph_info` (columns), and
those of the algorithm. -/
structure ObjScratch where
  xyz : List (Vec ℝ)
  vxyz : List (Vec ℝ)
  m : List ℝ
  morphs : List Morph
  sc : Scratch

/-- A particle of an object. -/
structure Part where
  pos : Vec ℝ
  vel : Vec ℝ
  mass : ℝ

/-- What the loop reads of object `p`: particles in catalogue order, center, R200. -/
structure ObjData where
  particles : List Part
  center : Vec ℝ
  r200 : ℝ

/-- Output slot: `m[p]` and row `p` of `d, q, s, major, inter, minor`; `none` = the call raises. -/
structure Slot where
  mass : ℝ
  morphs : Option (List Morph)

/-- `CythonHelpers.calcCoM` of the velocities, with its division check (helper_class.pyx:85-107). -/
noncomputable def velocityCenter (vs : List (Vec ℝ)) (ms : List ℝ) : Option (Vec ℝ) :=
  if ms ≠ [] ∧ ms.sum = 0 then none
  else some (Periodic.cyCalcCoM (List.zipWith Particle.mk vs ms))

/-- The call of `calcObjMorph*` on the first `size` rows of the scratch arrays. -/
noncomputable def computeObj (st : Settings) (kind : Kind) (o : ObjData) (size : Nat) (s : ObjScratch) :
    Option (List Morph × Scratch) :=
  let xyz := s.xyz.take size
  let vxyz := s.vxyz.take size
  let ms := s.m.take size
  let posPts := List.zipWith (fun x m => Pt.mk x x m) xyz ms
  let velPts := List.zipWith (fun (xv : Vec ℝ × Vec ℝ) m => Pt.mk xv.1 xv.2 m) (xyz.zip vxyz) ms
  match kind with
  | .localShape => objMorphLocal st posPts o.center o.center o.r200 s.morphs s.sc
  | .globalShape => objMorphGlobal st posPts o.center o.center o.r200 s.morphs s.sc
  | .localVel => (velocityCenter vxyz ms).bind fun vc =>
      objMorphLocal st velPts o.center vc o.r200 s.morphs s.sc
  | .globalVel => (velocityCenter vxyz ms).bind fun vc =>
      objMorphGlobal st velPts o.center vc o.r200 s.morphs s.sc

/-- Scratch memory after the call (unchanged if it raised). -/
def leave (s : ObjScratch) (r : Option (List Morph × Scratch)) : ObjScratch :=
  (r.map fun ms => { s with morphs := ms.1, sc := ms.2 }).getD s

/-- Copying particle `n` into the scratch rows and adding its mass to `m[p]`,
shape_profs_algos.pyx:596-601. -/
def gatherStep (kind : Kind) (pn : Part × Nat) : Action ObjScratch Slot := fun x =>
  ({ x.1 with
      xyz := x.1.xyz.set pn.2 pn.1.pos
      vxyz := if kind.fillsVelocities then x.1.vxyz.set pn.2 pn.1.vel else x.1.vxyz
      m := x.1.m.set pn.2 pn.1.mass },
   { x.2 with mass := x.2.mass + pn.1.mass })

/-- Body of the `prange` loop for one object, shape_profs_algos.pyx:595-616, 706-721, 816-838,
936-958.  An exception in one iteration makes the whole call raise; which other iterations are then
still executed is irrelevant, they are all executed here. -/
noncomputable def shapeBody (st : Settings) (kind : Kind) (o : ObjData) : List (Action ObjScratch Slot) :=
  let size := o.particles.length
  (o.particles.zipIdx.map (gatherStep kind)) ++
  [fun x => ({ x.1 with
      xyz := Periodic.cyRespectPBCNoRef (x.1.xyz.take size) st.box ++ x.1.xyz.drop size }, x.2),
   fun x => (leave x.1 (computeObj st kind o size x.1),
     { x.2 with morphs := (computeObj st kind o size x.1).map Prod.fst })]

/-- Number of columns of `morph_info`. -/
def columns (st : Settings) : Kind → Nat
  | .localShape | .localVel => st.radii.length
  | .globalShape | .globalVel => 1

/-! ## The same without scratch memory -/

/-- `runOne` without scratch memory. -/
noncomputable def pureOne (cfg : Config) (morph : Morph) : Option Morph :=
  (pureRun (cfg.wall.toNat + 1) cfg morph).join

theorem runOne_pure (cfg : Config) (morph : Morph) (sc : Scratch)
    (hs : cfg.pts.length ≤ sc.shell.length) (hr : cfg.pts.length ≤ sc.rEll.length) :
    (runOne cfg morph sc).map Prod.fst = pureOne cfg morph ∧
    ∀ m sc', runOne cfg morph sc = some (m, sc') →
      sc'.shell.length = sc.shell.length ∧ sc'.rEll.length = sc.rEll.length := by
  obtain ⟨h1, h2⟩ := runAlgo_pure (cfg.wall.toNat + 1) cfg morph sc hs hr
  constructor
  · unfold runOne pureOne
    rw [← h1]
    cases runAlgo (cfg.wall.toNat + 1) cfg morph sc with
    | none => rfl
    | some r => rfl
  · intro m sc' h
    apply h2 m
    unfold runOne at h
    cases hr : runAlgo (cfg.wall.toNat + 1) cfg morph sc with
    | none => rw [hr] at h; simp at h
    | some r => rw [hr] at h; simp at h; rw [h]

/-- `shellLoop` without scratch memory. -/
noncomputable def pureLoop (st : Settings) (pts : List Pt) (center srcCenter : Vec ℝ)
    (rows : List ((ℝ × Option ℝ) × Morph)) : Option (List Morph) :=
  rows.mapM fun row => pureOne (st.config pts center srcCenter row.1.1 row.1.2) row.2

theorem shellLoop_pure (st : Settings) (pts : List Pt) (center srcCenter : Vec ℝ)
    (rows : List ((ℝ × Option ℝ) × Morph)) (sc : Scratch)
    (hs : pts.length ≤ sc.shell.length) (hr : pts.length ≤ sc.rEll.length) :
    (shellLoop st pts center srcCenter rows sc).map Prod.fst = pureLoop st pts center srcCenter rows ∧
    ∀ ms sc', shellLoop st pts center srcCenter rows sc = some (ms, sc') →
      sc'.shell.length = sc.shell.length ∧ sc'.rEll.length = sc.rEll.length := by
  induction rows generalizing sc with
  | nil =>
    constructor
    · rfl
    · intro ms sc' h
      simp only [shellLoop, Option.some.injEq, Prod.mk.injEq] at h
      rw [← h.2]; exact ⟨rfl, rfl⟩
  | cons row rows ih =>
    obtain ⟨dd, morph⟩ := row
    obtain ⟨h1, h2⟩ := runOne_pure (st.config pts center srcCenter dd.1 dd.2) morph sc hs hr
    unfold shellLoop pureLoop
    rw [List.mapM_cons]
    simp only
    cases hone : runOne (st.config pts center srcCenter dd.1 dd.2) morph sc with
    | none =>
      rw [hone] at h1
      rw [← h1]
      exact ⟨rfl, by simp⟩
    | some r =>
      obtain ⟨m, sc1⟩ := r
      rw [hone] at h1
      rw [← h1]
      obtain ⟨l1, l2⟩ := h2 m sc1 hone
      obtain ⟨i1, i2⟩ := ih sc1 (by rw [l1]; exact hs) (by rw [l2]; exact hr)
      unfold pureLoop at i1
      rw [← i1]
      constructor
      · simp only [Option.bind_some, Option.map_some, Option.bind_eq_bind]
        cases shellLoop st pts center srcCenter rows sc1 with
        | none => rfl
        | some r => rfl
      · intro ms sc' h
        simp only [Option.bind_some, Option.map_eq_some_iff, Prod.mk.injEq] at h
        obtain ⟨r', hr', -, rfl⟩ := h
        obtain ⟨j1, j2⟩ := i2 r'.1 r'.2 hr'
        exact ⟨j1.trans l1, j2.trans l2⟩

/-- The local shapes of one object without scratch memory. -/
noncomputable def pureLocal (st : Settings) (pts : List Pt) (center srcCenter : Vec ℝ) (r200 : ℝ)
    (cols : Nat) : Option (List Morph) :=
  if localSpread pts = 0 then some (List.replicate cols .zero)
  else if r200 = 0 then some (List.replicate cols .zero)
  else pureLoop st pts center srcCenter ((List.range cols).map fun k =>
    (shellAt st r200 k, { Morph.zero with d := (shellAt st r200 k).1 }))

/-- The global shape of one object without scratch memory. -/
noncomputable def pureGlobal (st : Settings) (pts : List Pt) (center srcCenter : Vec ℝ) (r200 : ℝ)
    (cols : Nat) : Option (List Morph) :=
  if localSpread pts = 0 then some (List.replicate cols .zero)
  else pureLoop st pts center srcCenter (List.replicate cols
    ((r200 + st.safe, none), { Morph.zero with d := r200 + st.safe }))

theorem map_const {α β : Type} (l : List α) (b : β) : (l.map fun _ => b) = List.replicate l.length b := by
  induction l with
  | nil => rfl
  | cons a l ih => simp [List.replicate_succ]

theorem zipIdx_replicate {α : Type} (n : Nat) (a : α) :
    (List.replicate n a).zipIdx = (List.range n).map fun k => (a, k) := by
  apply List.ext_getElem
  · simp
  · intro i h1 h2; simp

theorem objMorphLocal_pure (st : Settings) (pts : List Pt) (center srcCenter : Vec ℝ) (r200 : ℝ)
    (morphs : List Morph) (sc : Scratch)
    (hs : pts.length ≤ sc.shell.length) (hr : pts.length ≤ sc.rEll.length) :
    (objMorphLocal st pts center srcCenter r200 morphs sc).map Prod.fst =
      pureLocal st pts center srcCenter r200 morphs.length ∧
    ∀ ms sc', objMorphLocal st pts center srcCenter r200 morphs sc = some (ms, sc') →
      sc'.shell.length = sc.shell.length ∧ sc'.rEll.length = sc.rEll.length := by
  unfold objMorphLocal pureLocal
  simp only [map_const, zipIdx_replicate, List.map_map]
  have stop : ∀ ms sc', some (List.replicate morphs.length Morph.zero, sc) = some (ms, sc') →
      sc'.shell.length = sc.shell.length ∧ sc'.rEll.length = sc.rEll.length := by
    intro ms sc' h
    simp only [Option.some.injEq, Prod.mk.injEq] at h
    rw [← h.2]; exact ⟨rfl, rfl⟩
  by_cases h1 : localSpread pts = 0
  · rw [if_pos h1, if_pos h1]; exact ⟨rfl, stop⟩
  · rw [if_neg h1, if_neg h1]
    by_cases h2 : r200 = 0
    · rw [if_pos h2, if_pos h2]; exact ⟨rfl, stop⟩
    · rw [if_neg h2, if_neg h2]
      exact shellLoop_pure st pts center srcCenter _ sc hs hr

theorem objMorphGlobal_pure (st : Settings) (pts : List Pt) (center srcCenter : Vec ℝ) (r200 : ℝ)
    (morphs : List Morph) (sc : Scratch)
    (hs : pts.length ≤ sc.shell.length) (hr : pts.length ≤ sc.rEll.length) :
    (objMorphGlobal st pts center srcCenter r200 morphs sc).map Prod.fst =
      pureGlobal st pts center srcCenter r200 morphs.length ∧
    ∀ ms sc', objMorphGlobal st pts center srcCenter r200 morphs sc = some (ms, sc') →
      sc'.shell.length = sc.shell.length ∧ sc'.rEll.length = sc.rEll.length := by
  unfold objMorphGlobal pureGlobal
  simp only [map_const, List.map_replicate]
  by_cases h1 : localSpread pts = 0
  · rw [if_pos h1, if_pos h1]
    refine ⟨rfl, ?_⟩
    intro ms sc' h
    simp only [Option.some.injEq, Prod.mk.injEq] at h
    rw [← h.2]; exact ⟨rfl, rfl⟩
  · rw [if_neg h1, if_neg h1]
    exact shellLoop_pure st pts center srcCenter _ sc hs hr

theorem pureLoop_length {st : Settings} {pts : List Pt} {center srcCenter : Vec ℝ}
    {rows : List ((ℝ × Option ℝ) × Morph)} {ms : List Morph}
    (h : pureLoop st pts center srcCenter rows = some ms) : ms.length = rows.length :=
  mapM_length _ _ _ h

theorem pureLocal_length {st : Settings} {pts : List Pt} {center srcCenter : Vec ℝ} {r200 : ℝ}
    {cols : Nat} {ms : List Morph} (h : pureLocal st pts center srcCenter r200 cols = some ms) :
    ms.length = cols := by
  unfold pureLocal at h
  split at h
  · obtain rfl := Option.some.inj h; simp
  · split at h
    · obtain rfl := Option.some.inj h; simp
    · rw [pureLoop_length h]; simp

theorem pureGlobal_length {st : Settings} {pts : List Pt} {center srcCenter : Vec ℝ} {r200 : ℝ}
    {cols : Nat} {ms : List Morph} (h : pureGlobal st pts center srcCenter r200 cols = some ms) :
    ms.length = cols := by
  unfold pureGlobal at h
  split at h
  · obtain rfl := Option.some.inj h; simp
  · rw [pureLoop_length h]; simp

/-- The particles of an object as `calcObjMorph*` sees them: unwrapped positions. -/
noncomputable def unwrapped (st : Settings) (o : ObjData) : List (Vec ℝ) :=
  Periodic.cyRespectPBCNoRef (o.particles.map fun p => p.pos) st.box

/-- Positions are the vectors whose tensor is computed. -/
noncomputable def positionPts (st : Settings) (o : ObjData) : List Pt :=
  List.zipWith (fun x (p : Part) => Pt.mk x x p.mass) (unwrapped st o) o.particles

/-- `vel p` are the vectors whose tensor is computed. -/
noncomputable def velocityPts (st : Settings) (o : ObjData) (vel : Part → Vec ℝ) : List Pt :=
  List.zipWith (fun x (p : Part) => Pt.mk x (vel p) p.mass) (unwrapped st o) o.particles

/-- Velocity center. -/
noncomputable def velocityMean (o : ObjData) (vel : Part → Vec ℝ) : Option (Vec ℝ) :=
  velocityCenter (o.particles.map vel) (o.particles.map fun p => p.mass)

/-- The shapes of one object on its own, computed without any scratch memory. -/
noncomputable def aloneShapes (st : Settings) (kind : Kind) (o : ObjData) : Option (List Morph) :=
  match kind with
  | .localShape => pureLocal st (positionPts st o) o.center o.center o.r200 st.radii.length
  | .globalShape => pureGlobal st (positionPts st o) o.center o.center o.r200 1
  | .localVel => (velocityMean o fun _ => 0).bind fun vc =>
      pureLocal st (velocityPts st o fun _ => 0) o.center vc o.r200 st.radii.length
  | .globalVel => (velocityMean o fun p => p.vel).bind fun vc =>
      pureGlobal st (velocityPts st o fun p => p.vel) o.center vc o.r200 1

/-! ## Refinement -/

theorem gather_result (kind : Kind) (ps : List Part) (k : Nat) (s : ObjScratch) (out : Slot)
    (hx : k + ps.length ≤ s.xyz.length) (hm : k + ps.length ≤ s.m.length)
    (hv : k + ps.length ≤ s.vxyz.length) :
    runBody ((ps.zipIdx k).map (gatherStep kind)) (s, out) =
    ({ s with
       xyz := s.xyz.take k ++ ps.map (fun p => p.pos) ++ s.xyz.drop (k + ps.length),
       vxyz := if kind.fillsVelocities then
          s.vxyz.take k ++ ps.map (fun p => p.vel) ++ s.vxyz.drop (k + ps.length) else s.vxyz
       m := s.m.take k ++ ps.map (fun p => p.mass) ++ s.m.drop (k + ps.length) },
     { out with mass := out.mass + (ps.map fun p => p.mass).sum }) := by
  have hset : ∀ {α : Type} (k : Nat) (l : List α) (v : α), k < l.length →
      (l.set k v).take (k + 1) = l.take k ++ [v] := by
    intro α k l v h
    rw [List.take_add_one, List.take_set_of_le (le_refl k)]
    simp [h]
  induction ps generalizing k s out with
  | nil => simp [runBody]
  | cons p ps ih =>
    simp only [List.length_cons] at hx hm hv
    have := ih (k + 1) (gatherStep kind (p, k) (s, out)).1 (gatherStep kind (p, k) (s, out)).2
      (by simp [gatherStep]; omega) (by simp [gatherStep]; omega)
      (by cases hk : kind.fillsVelocities <;> simp [gatherStep, hk] <;> omega)
    simp only [List.zipIdx_cons, List.map_cons, runBody, List.foldl_cons] at this ⊢
    have e : gatherStep kind (p, k) (s, out) =
      ((gatherStep kind (p, k) (s, out)).1, (gatherStep kind (p, k) (s, out)).2) := rfl
    rw [e, this]
    simp only [gatherStep, hset k s.xyz p.pos (by omega), hset k s.m p.mass (by omega),
      List.length_cons]
    rw [List.drop_set_of_lt (by omega), List.drop_set_of_lt (by omega)]
    cases kind.fillsVelocities
    · simp [Nat.add_comm 1, add_assoc]
    · simp only [if_true, hset k s.vxyz p.vel (by omega)]
      rw [List.drop_set_of_lt (by omega)]
      simp [Nat.add_comm 1, add_assoc]

theorem take_append_self {α : Type} (a b : List α) (n : Nat) (h : a.length = n) :
    (a ++ b).take n = a := by
  rw [List.take_append_of_le_length (by omega), List.take_of_length_le (by omega)]

/-- Admissible scratch memory. -/
def Inv (st : Settings) (kind : Kind) (largest : Nat) (s : ObjScratch) : Prop :=
  s.xyz.length = largest ∧ s.m.length = largest ∧ s.sc.shell.length = largest ∧
  s.sc.rEll.length = largest ∧ s.morphs.length = columns st kind ∧ s.vxyz.length = largest ∧
  (kind = .localVel → s.vxyz = List.replicate largest 0)

theorem zipWith_map_part {β γ : Type} (f : β → ℝ → γ) (a : List β) (ps : List Part) :
    List.zipWith f a (ps.map fun p => p.mass) = List.zipWith (fun x (p : Part) => f x p.mass) a ps := by
  rw [List.zipWith_map_right]

theorem zipWith_zip_part (a : List (Vec ℝ)) (ps : List Part) (vel : Part → Vec ℝ) :
    List.zipWith (fun (xv : Vec ℝ × Vec ℝ) m => Pt.mk xv.1 xv.2 m) (a.zip (ps.map vel))
      (ps.map fun p => p.mass) =
    List.zipWith (fun x (p : Part) => Pt.mk x (vel p) p.mass) a ps := by
  induction a generalizing ps with
  | nil => simp
  | cons x a ih =>
    cases ps with
    | nil => simp
    | cons p ps => simp only [List.map_cons, List.zip_cons_cons, List.zipWith_cons_cons, ih]

theorem computeObj_eq (st : Settings) (kind : Kind) (largest : Nat) (o : ObjData)
    (hl : o.particles.length ≤ largest) (s : ObjScratch) (hs : Inv st kind largest s)
    (hx : s.xyz.take o.particles.length = unwrapped st o)
    (hm : s.m.take o.particles.length = o.particles.map fun p => p.mass)
    (hv : kind = .globalVel → s.vxyz.take o.particles.length = o.particles.map fun p => p.vel) :
    (computeObj st kind o o.particles.length s).map Prod.fst = aloneShapes st kind o ∧
    ∀ ms sc', computeObj st kind o o.particles.length s = some (ms, sc') →
      sc'.shell.length = largest ∧ sc'.rEll.length = largest ∧ ms.length = columns st kind := by
  obtain ⟨-, -, hsh, hre, hmo, -, hvl⟩ := hs
  have hu : (unwrapped st o).length = o.particles.length := by
    simp [unwrapped, Binning.cyRespect_length]
  have key : ∀ {r : Option (List Morph × Scratch)} {p : Option (List Morph)},
      (r.map Prod.fst = p ∧ ∀ ms sc', r = some (ms, sc') →
        sc'.shell.length = s.sc.shell.length ∧ sc'.rEll.length = s.sc.rEll.length) →
      (∀ ms, p = some ms → ms.length = columns st kind) →
      r.map Prod.fst = p ∧ ∀ ms sc', r = some (ms, sc') →
        sc'.shell.length = largest ∧ sc'.rEll.length = largest ∧ ms.length = columns st kind := by
    rintro r p ⟨h1, h2⟩ h3
    refine ⟨h1, fun ms sc' h => ?_⟩
    obtain ⟨a, b⟩ := h2 ms sc' h
    refine ⟨a.trans hsh, b.trans hre, h3 ms ?_⟩
    rw [← h1, h]; rfl
  have lenV : ∀ vel, (velocityPts st o vel).length ≤ largest := by
    intro vel; simp [velocityPts, hu, hl]
  have lenP : (positionPts st o).length ≤ largest := by simp [positionPts, hu, hl]
  unfold computeObj aloneShapes
  cases kind with
  | localShape =>
    simp only [hx, hm, zipWith_map_part]
    apply key
    · rw [show st.radii.length = s.morphs.length from hmo.symm]
      exact objMorphLocal_pure st _ _ _ _ s.morphs s.sc (by rw [hsh]; exact lenP)
        (by rw [hre]; exact lenP)
    · intro ms h; exact pureLocal_length h
  | globalShape =>
    simp only [hx, hm, zipWith_map_part]
    apply key
    · rw [show 1 = s.morphs.length from hmo.symm]
      exact objMorphGlobal_pure st _ _ _ _ s.morphs s.sc (by rw [hsh]; exact lenP)
        (by rw [hre]; exact lenP)
    · intro ms h; exact pureGlobal_length h
  | localVel =>
    have hv0 : s.vxyz.take o.particles.length = o.particles.map fun _ => (0 : Vec ℝ) := by
      rw [hvl rfl, List.take_replicate, map_const, min_eq_left hl]
    simp only [hx, hm, hv0, zipWith_zip_part]
    show _ = Option.bind (velocityCenter (o.particles.map fun _ => (0 : Vec ℝ))
      (o.particles.map fun p => p.mass)) _ ∧ _
    cases velocityCenter (o.particles.map fun _ => (0 : Vec ℝ)) (o.particles.map fun p => p.mass) with
    | none => exact ⟨rfl, by simp⟩
    | some vc =>
      simp only [Option.bind_some]
      apply key
      · rw [show st.radii.length = s.morphs.length from hmo.symm]
        exact objMorphLocal_pure st _ _ _ _ s.morphs s.sc (by rw [hsh]; exact lenV _)
          (by rw [hre]; exact lenV _)
      · intro ms h; exact pureLocal_length h
  | globalVel =>
    simp only [hx, hm, hv rfl, zipWith_zip_part]
    show _ = Option.bind (velocityCenter (o.particles.map fun p => p.vel)
      (o.particles.map fun p => p.mass)) _ ∧ _
    cases velocityCenter (o.particles.map fun p => p.vel) (o.particles.map fun p => p.mass) with
    | none => exact ⟨rfl, by simp⟩
    | some vc =>
      simp only [Option.bind_some]
      apply key
      · rw [show 1 = s.morphs.length from hmo.symm]
        exact objMorphGlobal_pure st _ _ _ _ s.morphs s.sc (by rw [hsh]; exact lenV _)
          (by rw [hre]; exact lenV _)
      · intro ms h; exact pureGlobal_length h

theorem body_result (st : Settings) (kind : Kind) (largest : Nat) (o : ObjData)
    (hl : o.particles.length ≤ largest) (s : ObjScratch) (hs : Inv st kind largest s) (out : Slot) :
    Inv st kind largest (runBody (shapeBody st kind o) (s, out)).1 ∧
    (runBody (shapeBody st kind o) (s, out)).2 =
      ⟨out.mass + (o.particles.map fun p => p.mass).sum, aloneShapes st kind o⟩ := by
  have hsplit : ∀ (a b : List (Action ObjScratch Slot)) x,
      runBody (a ++ b) x = runBody b (runBody a x) := by
    intro a b x; simp [runBody, List.foldl_append]
  have hs' := hs
  obtain ⟨hx, hm, hsh, hre, hmo, hve, hvl⟩ := hs'
  unfold shapeBody
  simp only
  rw [hsplit, gather_result kind o.particles 0 s out (by omega) (by omega) (by omega)]
  simp only [runBody, List.foldl_cons, List.foldl_nil, List.take_zero, List.nil_append, zero_add]
  have e1 : ((o.particles.map fun p => p.pos) ++ s.xyz.drop o.particles.length).take
      o.particles.length = o.particles.map fun p => p.pos :=
    take_append_self _ _ _ (by simp)
  rw [e1]
  -- the memory before the computation
  have e2 : ((o.particles.map fun p => p.pos) ++ s.xyz.drop o.particles.length).drop
      o.particles.length = s.xyz.drop o.particles.length := by
    rw [List.drop_append_of_le_length (by simp)]; simp
  rw [e2]
  set s2 : ObjScratch := ⟨Periodic.cyRespectPBCNoRef (o.particles.map fun p => p.pos) st.box ++
      s.xyz.drop o.particles.length,
    if kind.fillsVelocities then (o.particles.map fun p => p.vel) ++ s.vxyz.drop o.particles.length
      else s.vxyz,
    (o.particles.map fun p => p.mass) ++ s.m.drop o.particles.length, s.morphs, s.sc⟩ with hs2'
  have i2 : Inv st kind largest s2 := by
    refine ⟨?_, ?_, hsh, hre, hmo, ?_, ?_⟩
    · simp only [hs2', List.length_append, Binning.cyRespect_length, List.length_map,
        List.length_drop]
      omega
    · simp only [hs2', List.length_append, List.length_map, List.length_drop]
      omega
    · simp only [hs2']
      split
      · simp only [List.length_append, List.length_map, List.length_drop]; omega
      · exact hve
    · intro hk
      subst hk
      simp only [hs2', Kind.fillsVelocities]
      exact hvl rfl
  obtain ⟨c1, c2⟩ := computeObj_eq st kind largest o hl s2 i2
    (by simp only [hs2']; exact take_append_self _ _ _ (by simp [Binning.cyRespect_length]))
    (by simp only [hs2']; exact take_append_self _ _ _ (by simp))
    (by
      rintro rfl
      simp only [hs2', Kind.fillsVelocities, if_true]
      exact take_append_self _ _ _ (by simp))
  refine ⟨?_, by rw [c1]⟩
  cases hc : computeObj st kind o o.particles.length s2 with
  | none => exact i2
  | some r =>
    obtain ⟨l1, l2, l3⟩ := c2 r.1 r.2 hc
    exact ⟨i2.1, i2.2.1, l1, l2, l3, i2.2.2.2.2.2.1, i2.2.2.2.2.2.2⟩

/-- All objects in parallel: every slot contains what the object gives on its own. -/
theorem parallel_shapes {T : Type} [DecidableEq T] (st : Settings) (kind : Kind) (objs : List ObjData)
    (largest : Nat) (hl : ∀ o ∈ objs, o.particles.length ≤ largest)
    (scratch : T → ObjScratch) (hs : ∀ t, Inv st kind largest (scratch t)) (init : Option (List Morph))
    (ws : List (Step T Nat ObjScratch Slot))
    (ex : Execution (fun p => (objs[p]?.map (shapeBody st kind)).getD []) (List.range objs.length) ws)
    (p : Nat) (o : ObjData) (hp : objs[p]? = some o) :
    (runSteps ws ⟨scratch, fun _ => ⟨0, init⟩⟩).out p =
      ⟨(o.particles.map fun p => p.mass).sum, aloneShapes st kind o⟩ := by
  have hlt : p < objs.length := (List.getElem?_eq_some_iff.1 hp).1
  have := (execution_result _ _ ws ex ⟨scratch, fun _ => ⟨0, init⟩⟩ (Inv st kind largest) hs
    (fun p => (objs[p]?.map fun o => Slot.mk (o.particles.map fun p => p.mass).sum
      (aloneShapes st kind o)).getD ⟨0, none⟩) ?_).1 p (by simpa using hlt)
  · rw [this, hp]; rfl
  · intro q hq s hs
    have hq : q < objs.length := by simpa using hq
    obtain ⟨o, ho⟩ : ∃ o, objs[q]? = some o := ⟨_, List.getElem?_eq_getElem hq⟩
    have hsize := hl o (List.mem_of_getElem? ho)
    simp only [ho, Option.map_some, Option.getD_some]
    obtain ⟨b1, b2⟩ := body_result st kind largest o hsize s hs ⟨0, init⟩
    exact ⟨b1, by rw [b2]; simp⟩

end Verif.Shapes
