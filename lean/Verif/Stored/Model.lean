import Mathlib.Data.Real.Basic

/-!
# Model of shape catalogues on disk

`_getShapeCatLocalBase`, `_getShapeCatGlobalBase`, `_dumpShapeCatLocalBase`, `_dumpShapeCatGlobalBase`
(`cosmic_profiles/common/cosmic_base_class.pyx`) and `getShapeCatLocal`, `getShapeCatGlobal`
(`cosmic_profiles/shape_profs/shape_profs_classes.pyx`), on the level of numpy arrays and text files, for
rank 0.  Simplifications: arithmetic is exact except for the decimal format of the files (`rnd`, arbitrary);
the shapes themselves (`calcMorphLocal`, `calcMorphGlobal`) are an arbitrary function of the request.
-/

namespace Verif.Stored

/-- Exceptions: `ValueError` of numpy, index out of range, no such file, `assert`. -/
inductive Err | value | index | file | assertion
  deriving DecidableEq, Repr

/-- A number; `none` is NaN. -/
abbrev V := Option ℝ

/-- Arrays of up to three dimensions. -/
inductive Nd
  | d0 (x : V)
  | d1 (l : List V)
  | d2 (l : List (List V))
  | d3 (l : List (List (List V)))

/-- Apply to all numbers. -/
def Nd.map (f : V → V) : Nd → Nd
  | .d0 x => .d0 (f x)
  | .d1 l => .d1 (l.map f)
  | .d2 l => .d2 (l.map fun r => r.map f)
  | .d3 l => .d3 (l.map fun r => r.map fun t => t.map f)

/-- All numbers in order (`a.flatten()`). -/
def Nd.flat : Nd → List V
  | .d0 x => [x]
  | .d1 l => l
  | .d2 l => l.flatten
  | .d3 l => l.flatten.flatten

/-- `a.shape[0]`. -/
def Nd.shape0 : Nd → Except Err Nat
  | .d0 _ => .error .index
  | .d1 l => .ok l.length
  | .d2 l => .ok l.length
  | .d3 l => .ok l.length

/-- Consecutive pieces of `k` elements. -/
def pieces {α : Type} (k : Nat) : Nat → List α → List (List α)
  | 0, _ => []
  | n + 1, l => l.take k :: pieces k n (l.drop k)

/-- `a.reshape(n, -1, 3)`. -/
def Nd.reshapeTriples (n : Nat) (a : Nd) : Except Err Nd :=
  if n = 0 ∨ a.flat.length % (3 * n) ≠ 0 then .error .value
  else
    let m := a.flat.length / (3 * n)
    .ok (.d3 ((pieces (3 * m) n a.flat).map (pieces 3 m)))

/-- `a.reshape(1, -1)`. -/
def Nd.asRow (a : Nd) : Nd := .d2 [a.flat]

/-- `a.reshape(-1, 1)`. -/
def Nd.asColumn (a : Nd) : Nd := .d2 (a.flat.map fun x => [x])

/-- `a.reshape(1, 3)`. -/
def Nd.asCenter (a : Nd) : Except Err Nd := if a.flat.length = 3 then .ok (.d2 [a.flat]) else .error .value

/-- `a.reshape(a.shape[0], -1)` for three dimensions (others unchanged). -/
def Nd.flatRows : Nd → Nd
  | .d3 l => .d2 (l.map List.flatten)
  | a => a

/-! ## Text files -/

/-- Lines of numbers. -/
abbrev Text := List (List V)

/-- `np.savetxt(name, a, fmt='%1.7e')`. -/
def savetxt (rnd : ℝ → ℝ) : Nd → Except Err Text
  | .d0 _ => .error .value
  | .d1 l => .ok (l.map fun x => [x.map rnd])
  | .d2 l => .ok (l.map fun r => r.map fun x => x.map rnd)
  | .d3 _ => .error .value

/-- `np.loadtxt(name)`: blank lines are skipped, dimensions of length one are removed. -/
def loadtxt (t : Text) : Except Err Nd :=
  match t.filter (fun l => !l.isEmpty) with
  | [] => .ok (.d1 [])
  | [[x]] => .ok (.d0 x)
  | [row] => .ok (.d1 row)
  | row :: rows =>
    if rows.all (fun r => r.length = row.length) then
      if row.length = 1 then .ok (.d1 (row :: rows).flatten) else .ok (.d2 (row :: rows))
    else .error .value

/-- The files `d_…`, `q_…`, …, cosmic_base_class.pyx:121-128, 194-201. -/
inductive Name | d | q | s | minor | inter | major | m | centers
  deriving DecidableEq, Repr

/-- The eight files of a catalogue. -/
abbrev Files := Name → Option Text

/-- `np.loadtxt` of one of the files, cosmic_base_class.pyx:121-128, 194-201. -/
def load (f : Files) (n : Name) : Except Err Nd :=
  match f n with
  | some t => loadtxt t
  | none => .error .file

/-- A catalogue in memory, internal units. -/
structure Cat where
  d : Nd
  q : Nd
  s : Nd
  minor : Nd
  inter : Nd
  major : Nd
  masses : Nd
  centers : Nd

/-- `l_internal/config.OutUnitLength_in_cm`, `m_internal/config.OutUnitMass_in_g`. -/
structure Out where
  l : ℝ
  m : ℝ

/-- `a*c` for an array and a number. -/
noncomputable def Nd.times (a : Nd) (c : ℝ) : Nd := a.map fun x => x.map (· * c)
/-- `a/c` for an array and a number. -/
noncomputable def Nd.over (a : Nd) (c : ℝ) : Nd := a.map fun x => x.map (· / c)

/-- The eight arrays as loaded, with lengths and masses divided by the factors,
cosmic_base_class.pyx:120-133, 195-209. -/
noncomputable def loadAll (f : Files) (u : Out) : Except Err Cat := do
  let d ← load f .d
  let q ← load f .q
  let s ← load f .s
  let minor ← load f .minor
  let inter ← load f .inter
  let major ← load f .major
  let masses ← load f .m
  let centers ← load f .centers
  return ⟨d.over u.l, q, s, minor, inter, major, masses.over u.m, centers.over u.l⟩

/-- `x.reshape(x.shape[0], -1, 3)`. -/
def triples (a : Nd) : Except Err Nd := a.shape0 >>= fun n => a.reshapeTriples n

/-- `np.array([a])` for the masses of one object: only used for a number. -/
def wrap : Nd → Nd
  | .d0 x => .d1 [x]
  | .d1 l => .d2 [l]
  | .d2 l => .d3 [l]
  | a => a

/-- Shapes of arrays after loading a local catalogue, cosmic_base_class.pyx:134-152.  The test
`d.shape[0] != 0` comes first and fails for an array without dimensions. -/
noncomputable def loadLocal (f : Files) (u : Out) : Except Err Cat := do
  let c ← loadAll f u
  let n ← c.d.shape0
  match c.d with
  | .d2 _ =>
    if n ≠ 0 then
      let minor ← triples c.minor
      let inter ← triples c.inter
      let major ← triples c.major
      return { c with minor, inter, major }
    else return { c with minor := .d1 [], inter := .d1 [], major := .d1 [] }
  | .d1 _ =>
    let minor ← c.minor.reshapeTriples 1
    let inter ← c.inter.reshapeTriples 1
    let major ← c.major.reshapeTriples 1
    let centers ← c.centers.asCenter
    return { d := c.d.asRow, q := c.q.asRow, s := c.s.asRow, minor, inter, major, masses := wrap c.masses, centers }
  | _ => return { c with minor := .d1 [], inter := .d1 [], major := .d1 [] }

/-- The same for a global catalogue, cosmic_base_class.pyx:210-232. -/
noncomputable def loadGlobal (f : Files) (u : Out) : Except Err Cat := do
  let c ← loadAll f u
  match c.d with
  | .d1 (_ :: _) =>
    let minor ← triples c.minor
    let inter ← triples c.inter
    let major ← triples c.major
    return { c with d := c.d.asColumn, q := c.q.asColumn, s := c.s.asColumn, minor, inter, major }
  | .d0 _ =>
    let minor ← c.minor.reshapeTriples 1
    let inter ← c.inter.reshapeTriples 1
    let major ← c.major.reshapeTriples 1
    let centers ← c.centers.asCenter
    return { d := c.d.asRow, q := c.q.asRow, s := c.s.asRow, minor, inter, major, masses := wrap c.masses, centers }
  | d =>
    if d.flat.length = 0 then return { c with minor := .d1 [], inter := .d1 [], major := .d1 [] }
    else .error .assertion

/-- Local or global shapes. -/
inductive Kind | loc | glob
  deriving DecidableEq, Repr

/-- Loading a catalogue of either kind. -/
noncomputable def loadCat : Kind → Files → Out → Except Err Cat
  | .loc => loadLocal
  | .glob => loadGlobal

/-- `_getShapeCatLocalBase`, `_getShapeCatGlobalBase`: if the file `d_…` exists the catalogue is loaded,
otherwise computed. -/
noncomputable def getBase (k : Kind) (f : Files) (u : Out) (computed : Cat) : Except Err Cat :=
  if (f .d).isSome then loadCat k f u else .ok computed

/-- What is written, cosmic_base_class.pyx:452-477, 508-532: name and contents, in this order. -/
noncomputable def dumped (rnd : ℝ → ℝ) (u : Out) (c : Cat) : Except Err (List (Name × Text)) := do
  let n ← c.d.shape0
  let minor := if n ≠ 0 then c.minor.flatRows else .d1 []
  let inter := if n ≠ 0 then c.inter.flatRows else .d1 []
  let major := if n ≠ 0 then c.major.flatRows else .d1 []
  let d ← savetxt rnd (c.d.times u.l)
  let q ← savetxt rnd c.q
  let s ← savetxt rnd c.s
  let minor ← savetxt rnd minor
  let inter ← savetxt rnd inter
  let major ← savetxt rnd major
  let m ← savetxt rnd (c.masses.times u.m)
  let centers ← savetxt rnd (c.centers.times u.l)
  return [(.d, d), (.q, q), (.s, s), (.minor, minor), (.inter, inter), (.major, major), (.m, m), (.centers, centers)]

/-- Writing of a file. -/
def write (f : Files) (w : Name × Text) : Files := Function.update f w.1 (some w.2)

/-- `dumpShapeCatLocal`, `dumpShapeCatGlobal` without interruption. -/
noncomputable def dump (k : Kind) (rnd : ℝ → ℝ) (f : Files) (u : Out) (computed : Cat) : Except Err Files := do
  let c ← getBase k f u computed
  let ws ← dumped rnd u c
  return ws.foldl write f

/-! ## The public functions -/

/-- Numpy broadcasting of an axis of length `n` to `m`. -/
def stretch {α : Type} (m : Nat) (l : List α) : Except Err (List α) :=
  if l.length = m then .ok l
  else match l with
    | [x] => .ok (List.replicate m x)
    | _ => .error .value

/-- `shapes[…] = a` for a field with `n` objects and `r` radii. -/
def fill2 (n r : Nat) : Nd → Except Err (List (List V))
  | .d0 x => .ok (List.replicate n (List.replicate r x))
  | .d1 l => (stretch r l).map fun l => List.replicate n l
  | .d2 l => (l.mapM (stretch r)).bind (stretch n)
  | .d3 _ => .error .value

/-- `shapes[…] = a` for a field with `n` objects, `r` radii and three numbers. -/
def fill3 (n r : Nat) : Nd → Except Err (List (List (List V)))
  | .d3 l => (l.mapM (stretch r)).bind (stretch n)
  | _ => .error .value

/-- The structured array which is returned; `is_conv` follows from `q`. -/
structure Shapes where
  d : List (List V)
  q : List (List V)
  s : List (List V)
  minor : List (List (List V))
  inter : List (List (List V))
  major : List (List (List V))

/-- `getShapeCatLocal`, shape_profs_classes.pyx:87-107, and `getShapeCatGlobal`, 122-143, for `n` objects and
`r` radii; global shapes are those with `r = 1` (the only radius, `d[:,0]`). -/
noncomputable def get (k : Kind) (f : Files) (u : Out) (n r : Nat) (computed : Cat) : Except Err Shapes := do
  let c ← getBase k f u computed
  let d ← fill2 n r (c.d.times u.l)
  let q ← fill2 n r c.q
  let s ← fill2 n r c.s
  let minor ← fill3 n r c.minor
  let inter ← fill3 n r c.inter
  let major ← fill3 n r c.major
  return ⟨d, q, s, minor, inter, major⟩

end Verif.Stored
