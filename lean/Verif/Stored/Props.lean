import Verif.Stored.Model
import Mathlib.Tactic.Ring
import Mathlib.Tactic.FieldSimp
import Mathlib.Tactic.Linarith

/-!
# Stored shape catalogues (C60, C61)
-/

namespace Verif.Stored

/-! ## Specification -/

/-- Shapes of `n` objects at `r` radii, internal units. -/
structure Data where
  d : List (List V)
  q : List (List V)
  s : List (List V)
  minor : List (List (List V))
  inter : List (List (List V))
  major : List (List (List V))
  masses : List V
  centers : List (List V)

/-- A table of `n` rows of `r`. -/
def IsTable {α : Type} (n r : Nat) (l : List (List α)) : Prop := l.length = n ∧ ∀ row ∈ l, row.length = r

/-- Tables for `n` objects and `r` radii; axes have three components. -/
structure Data.Good (D : Data) (n r : Nat) : Prop where
  d : IsTable n r D.d
  q : IsTable n r D.q
  s : IsTable n r D.s
  minor : IsTable n r D.minor ∧ ∀ row ∈ D.minor, ∀ t ∈ row, t.length = 3
  inter : IsTable n r D.inter ∧ ∀ row ∈ D.inter, ∀ t ∈ row, t.length = 3
  major : IsTable n r D.major ∧ ∀ row ∈ D.major, ∀ t ∈ row, t.length = 3
  masses : D.masses.length = n
  centers : IsTable n 3 D.centers

/-- As computed. -/
def Data.cat (D : Data) : Cat :=
  ⟨.d2 D.d, .d2 D.q, .d2 D.s, .d3 D.minor, .d3 D.inter, .d3 D.major, .d1 D.masses, .d2 D.centers⟩

/-- What a user should get: lengths in output units. -/
noncomputable def Data.answer (D : Data) (u : Out) : Shapes :=
  ⟨D.d.map fun r => r.map fun x => x.map (· * u.l), D.q, D.s, D.minor, D.inter, D.major⟩

/-- Rounding of all numbers to the format of the files. -/
def Shapes.round (rnd : ℝ → ℝ) (S : Shapes) : Shapes :=
  ⟨S.d.map fun r => r.map (Option.map rnd), S.q.map fun r => r.map (Option.map rnd),
    S.s.map fun r => r.map (Option.map rnd), S.minor.map fun r => r.map fun t => t.map (Option.map rnd),
    S.inter.map fun r => r.map fun t => t.map (Option.map rnd),
    S.major.map fun r => r.map fun t => t.map (Option.map rnd)⟩

/-- Global shapes have one radius; local ones two at least (see `C60_single_radius_refuted`). -/
def Kind.Radii : Kind → Nat → Prop
  | .loc, r => 2 ≤ r
  | .glob, r => r = 1

/-! ## Lists and files -/

theorem pieces_flatten {α : Type} (k : Nat) (cs : List (List α)) (h : ∀ c ∈ cs, c.length = k) :
    pieces k cs.length cs.flatten = cs := by
  induction cs with
  | nil => rfl
  | cons c cs ih =>
    have hc := h c List.mem_cons_self
    rw [List.length_cons, pieces, List.flatten_cons]
    rw [← hc, List.take_left, List.drop_left, hc, ih fun x hx => h x (List.mem_cons_of_mem _ hx)]

theorem length_flatten_table {α : Type} {n r : Nat} {l : List (List α)} (h : IsTable n r l) :
    l.flatten.length = n * r := by
  rw [List.length_flatten]
  have : l.map List.length = l.map fun _ => r := List.map_congr_left h.2
  rw [this]
  simp [h.1]

theorem IsTable.map {α β : Type} {n r : Nat} {l : List (List α)} (h : IsTable n r l) (f : α → β) :
    IsTable n r (l.map fun row => row.map f) := by
  refine ⟨by simp [h.1], ?_⟩
  intro row hrow
  obtain ⟨x, hx, rfl⟩ := List.mem_map.mp hrow
  simpa using h.2 x hx

/-- A table with more than one row and column is read as it is. -/
theorem loadtxt_table {n c : Nat} (hn : 2 ≤ n) (hc : 2 ≤ c) {t : Text} (h : IsTable n c t) :
    loadtxt t = .ok (.d2 t) := by
  have hf : t.filter (fun l => !l.isEmpty) = t := by
    rw [List.filter_eq_self]
    intro l hl
    have := h.2 l hl
    cases l
    · simp at this; omega
    · rfl
  unfold loadtxt
  rw [hf]
  match t, h with
  | [], h => have := h.1; simp at this; omega
  | [x], h => have := h.1; simp at this; omega
  | x :: y :: t, h =>
    have hx := h.2 x List.mem_cons_self
    have hall : (y :: t).all (fun r => decide (r.length = x.length)) = true := by
      rw [List.all_eq_true]
      intro r hr
      simp [h.2 r (List.mem_cons_of_mem _ hr), hx]
    simp only [hall, if_true]
    rw [if_neg (by omega)]

/-- One row. -/
theorem loadtxt_row {c : Nat} (hc : 2 ≤ c) (row : List V) (h : row.length = c) : loadtxt [row] = .ok (.d1 row) := by
  match row, h with
  | [], h => simp at h; omega
  | [x], h => simp at h; omega
  | x :: y :: t, _ => simp [loadtxt]

/-- One column. -/
theorem loadtxt_column {n : Nat} (hn : 2 ≤ n) (l : List V) (h : l.length = n) :
    loadtxt (l.map fun x => [x]) = .ok (.d1 l) := by
  have hf : (l.map fun x => [x]).filter (fun l => !l.isEmpty) = l.map fun x => [x] := by
    rw [List.filter_eq_self]
    intro x hx
    obtain ⟨y, -, rfl⟩ := List.mem_map.mp hx
    rfl
  unfold loadtxt
  rw [hf]
  match l, h with
  | [], h => simp at h; omega
  | [x], h => simp at h; omega
  | x :: y :: t, h =>
    simp only [List.map_cons]
    rw [if_pos]
    · simp only [List.length_singleton, if_true]
      congr 2
      have : ∀ l : List V, (l.map fun x => [x]).flatten = l := by
        intro l
        induction l with
        | nil => rfl
        | cons a l ih => simp [ih]
      simpa using this (x :: y :: t)
    · simp

/-- One number. -/
theorem loadtxt_number (x : V) : loadtxt [[x]] = .ok (.d0 x) := by simp [loadtxt]

theorem stretch_self {α : Type} (l : List α) : stretch l.length l = .ok l := by simp [stretch]

theorem mapM_stretch {α : Type} {n r : Nat} {l : List (List α)} (h : IsTable n r l) :
    l.mapM (stretch r) = .ok l := by
  have key : ∀ l : List (List α), (∀ row ∈ l, row.length = r) → l.mapM (stretch r) = .ok l := by
    intro l hl
    induction l with
    | nil => rfl
    | cons x l ih =>
      rw [List.mapM_cons]
      have hx : stretch r x = .ok x := by rw [← hl x List.mem_cons_self]; exact stretch_self x
      rw [hx, ih fun row hrow => hl row (List.mem_cons_of_mem _ hrow)]
      rfl
  exact key l h.2

theorem fill2_table {n r : Nat} {l : List (List V)} (h : IsTable n r l) : fill2 n r (.d2 l) = .ok l := by
  simp only [fill2, mapM_stretch h, Except.bind]
  rw [← h.1]
  exact stretch_self l

theorem fill3_table {n r : Nat} {l : List (List (List V))} (h : IsTable n r l) : fill3 n r (.d3 l) = .ok l := by
  simp only [fill3, mapM_stretch h, Except.bind]
  rw [← h.1]
  exact stretch_self l

/-! ## C60 -/

/-- C60. Without a stored catalogue the shapes of the requested objects are returned. -/
theorem C60_fresh_partial (k : Kind) (f : Files) (hf : f .d = none) (u : Out) (n r : Nat) (D : Data) (hD : D.Good n r) :
    get k f u n r D.cat = .ok (D.answer u) := by
  have hd := hD.d.map fun x : V => x.map (· * u.l)
  unfold get getBase
  rw [hf]
  simp only [Option.isSome_none, Bool.false_eq_true, if_false, Data.cat, bind, Except.bind, pure, Except.pure, Nd.times,
    Nd.map, fill2_table hd, fill2_table hD.q, fill2_table hD.s, fill3_table hD.minor.1, fill3_table hD.inter.1,
    fill3_table hD.major.1, Data.answer]

/-- Flattening of the triples of each object. -/
theorem reshape_table {n r : Nat} (hn : 1 ≤ n) {l : List (List (List V))} (h : IsTable n r l)
    (h3 : ∀ row ∈ l, ∀ t ∈ row, t.length = 3) (a : Nd) (ha : a.flat = (l.map List.flatten).flatten) :
    a.reshapeTriples n = .ok (.d3 l) := by
  have hrow : ∀ row ∈ l, row.flatten.length = 3 * r := by
    intro row hrow
    rw [length_flatten_table (n := row.length) (r := 3) ⟨rfl, h3 row hrow⟩, h.2 row hrow, mul_comm]
  have htab : IsTable n (3 * r) (l.map List.flatten) := by
    refine ⟨by simp [h.1], ?_⟩
    intro x hx
    obtain ⟨row, hr, rfl⟩ := List.mem_map.mp hx
    exact hrow row hr
  have hlen : a.flat.length = 3 * n * r := by
    rw [ha, length_flatten_table htab]; ring
  unfold Nd.reshapeTriples
  have hdiv : 3 * n * r / (3 * n) = r := Nat.mul_div_cancel_left r (by omega)
  rw [if_neg (by rw [hlen]; simp; omega)]
  simp only [hlen, hdiv]
  have hp : pieces (3 * r) n a.flat = l.map List.flatten := by
    have := pieces_flatten (3 * r) (l.map List.flatten) htab.2
    rw [htab.1, ← ha] at this
    exact this
  rw [hp, List.map_map]
  congr 2
  conv_rhs => rw [← List.map_id l]
  apply List.map_congr_left
  intro row hr
  have := pieces_flatten 3 row (h3 row hr)
  rw [h.2 row hr] at this
  exact this

/-- The eight files of a catalogue. -/
structure Holds (f : Files) (rnd : ℝ → ℝ) (u : Out) (D : Data) : Prop where
  d : f .d = some (D.d.map fun r => r.map fun x => (x.map (· * u.l)).map rnd)
  q : f .q = some (D.q.map fun r => r.map fun x => x.map rnd)
  s : f .s = some (D.s.map fun r => r.map fun x => x.map rnd)
  minor : f .minor = some (D.minor.map fun r => r.flatten.map fun x => x.map rnd)
  inter : f .inter = some (D.inter.map fun r => r.flatten.map fun x => x.map rnd)
  major : f .major = some (D.major.map fun r => r.flatten.map fun x => x.map rnd)
  m : f .m = some (D.masses.map fun x => [(x.map (· * u.m)).map rnd])
  centers : f .centers = some (D.centers.map fun r => r.map fun x => (x.map (· * u.l)).map rnd)

theorem dump_stored (k : Kind) (rnd : ℝ → ℝ) (f : Files) (hf : f .d = none) (u : Out) (n r : Nat) (hn : 1 ≤ n)
    (D : Data) (hD : D.Good n r) : ∃ f', dump k rnd f u D.cat = .ok f' ∧ Holds f' rnd u D := by
  have h0 : D.d.length ≠ 0 := by have := hD.d.1; omega
  unfold dump getBase
  rw [hf]
  simp only [Option.isSome_none, Bool.false_eq_true, if_false, bind, Except.bind, pure, Except.pure, dumped, Data.cat,
    Nd.shape0, ne_eq, h0, not_false_eq_true, if_true, savetxt, Nd.times, Nd.map, Nd.flatRows, List.foldl_cons,
    List.foldl_nil, List.map_map]
  refine ⟨_, rfl, ?_⟩
  constructor <;> simp [write, Function.update, Function.comp_def]

theorem load_some {f : Files} {n : Name} {t : Text} (h : f n = some t) : load f n = loadtxt t := by
  unfold load; rw [h]

theorem map_flatten_map {α β : Type} (f : α → β) (l : List (List (List α))) :
    (l.map fun r => r.flatten.map f) = (l.map fun r => r.map fun t => t.map f).map List.flatten := by
  rw [List.map_map]
  apply List.map_congr_left
  intro r _
  simp [List.map_flatten]

theorem IsTable3.map {n r : Nat} {l : List (List (List V))} (h : IsTable n r l ∧ ∀ row ∈ l, ∀ t ∈ row, t.length = 3)
    (g : V → V) : IsTable n r (l.map fun row => row.map fun t => t.map g) ∧
      ∀ row ∈ l.map (fun row => row.map fun t => t.map g), ∀ t ∈ row, t.length = 3 := by
  refine ⟨h.1.map _, ?_⟩
  intro row hrow t ht
  obtain ⟨row, hr, rfl⟩ := List.mem_map.mp hrow
  obtain ⟨t, ht', rfl⟩ := List.mem_map.mp ht
  simpa using h.2 row hr t ht'

theorem flatten_table {n r : Nat} {l : List (List (List V))} (h : IsTable n r l ∧ ∀ row ∈ l, ∀ t ∈ row, t.length = 3) :
    IsTable n (r * 3) (l.map List.flatten) := by
  refine ⟨by simp [h.1.1], ?_⟩
  intro x hx
  obtain ⟨row, hr, rfl⟩ := List.mem_map.mp hx
  rw [length_flatten_table (n := row.length) (r := 3) ⟨rfl, h.2 row hr⟩, h.1.2 row hr]

/-- What is held in memory after loading: the numbers of the files, divided by the factors in force. -/
noncomputable def Data.loaded (D : Data) (rnd : ℝ → ℝ) (u v : Out) : Data where
  d := D.d.map fun r => r.map fun x => ((x.map (· * u.l)).map rnd).map (· / v.l)
  q := D.q.map fun r => r.map fun x => x.map rnd
  s := D.s.map fun r => r.map fun x => x.map rnd
  minor := D.minor.map fun r => r.map fun t => t.map (Option.map rnd)
  inter := D.inter.map fun r => r.map fun t => t.map (Option.map rnd)
  major := D.major.map fun r => r.map fun t => t.map (Option.map rnd)
  masses := D.masses.map fun x => ((x.map (· * u.m)).map rnd).map (· / v.m)
  centers := D.centers.map fun r => r.map fun x => ((x.map (· * u.l)).map rnd).map (· / v.l)

theorem Data.Good.loaded {D : Data} {n r : Nat} (h : D.Good n r) (rnd : ℝ → ℝ) (u v : Out) :
    (D.loaded rnd u v).Good n r :=
  ⟨h.d.map _, h.q.map _, h.s.map _, IsTable3.map h.minor _, IsTable3.map h.inter _, IsTable3.map h.major _,
    by simp [Data.loaded, h.masses], h.centers.map _⟩

/-- From the catalogue in memory to the result. -/
theorem get_of_base {k : Kind} {f : Files} {u : Out} {n r : Nat} {o : Cat} {E : Data} (hE : E.Good n r)
    (hb : getBase k f u o = .ok E.cat) : get k f u n r o = .ok (E.answer u) := by
  have hd := hE.d.map fun x : V => x.map (· * u.l)
  unfold get
  rw [hb]
  simp only [Data.cat, bind, Except.bind, pure, Except.pure, Nd.times,
    Nd.map, fill2_table hd, fill2_table hE.q, fill2_table hE.s, fill3_table hE.minor.1, fill3_table hE.inter.1,
    fill3_table hE.major.1, Data.answer]

theorem times_over_map (c : ℝ) (hc : c ≠ 0) (l : List (List V)) (g : V → V) :
    ((l.map fun r => r.map g).map fun r => r.map fun x : V => (x.map (· / c)).map (· * c)) = l.map fun r => r.map g := by
  rw [List.map_map]
  apply List.map_congr_left
  intro r _
  simp only [Function.comp, List.map_map]
  apply List.map_congr_left
  intro x _
  cases h : g x with
  | none => simp [h]
  | some y => simp [h, div_mul_cancel₀ y hc]

/-- A stored catalogue is loaded completely. -/
theorem load_stored (k : Kind) (f : Files) (rnd : ℝ → ℝ) (u v : Out) (n r : Nat) (hn : 1 ≤ n)
    (hr : k.Radii r) (D : Data) (hD : D.Good n r) (hs : Holds f rnd u D) :
    loadCat k f v = .ok (D.loaded rnd u v).cat := by
  set dt := D.d.map fun row => row.map fun x : V => (x.map (· * u.l)).map rnd with hdt
  set qt := D.q.map fun row => row.map fun x : V => x.map rnd with hqt
  set st := D.s.map fun row => row.map fun x : V => x.map rnd with hst
  have hdT : IsTable n r dt := hD.d.map _
  have hqT : IsTable n r qt := hD.q.map _
  have hsT : IsTable n r st := hD.s.map _
  have hmin := IsTable3.map hD.minor (Option.map rnd)
  have hint := IsTable3.map hD.inter (Option.map rnd)
  have hmaj := IsTable3.map hD.major (Option.map rnd)
  set mt := D.minor.map fun row => row.map fun t => t.map (Option.map rnd) with hmt
  set it := D.inter.map fun row => row.map fun t => t.map (Option.map rnd) with hit
  set jt := D.major.map fun row => row.map fun t => t.map (Option.map rnd) with hjt
  have fmin := flatten_table hmin
  have fint := flatten_table hint
  have fmaj := flatten_table hmaj
  have lm : load f .minor = loadtxt (mt.map List.flatten) := by
    rw [load_some hs.minor, map_flatten_map]
  have li : load f .inter = loadtxt (it.map List.flatten) := by
    rw [load_some hs.inter, map_flatten_map]
  have lj : load f .major = loadtxt (jt.map List.flatten) := by
    rw [load_some hs.major, map_flatten_map]
  have hcT : IsTable n 3 (D.centers.map fun row => row.map fun x : V => (x.map (· * u.l)).map rnd) := hD.centers.map _
  have goal_eq : (D.loaded rnd u v).cat = ⟨.d2 (dt.map fun row => row.map fun x : V => x.map (· / v.l)), .d2 qt, .d2 st,
      .d3 mt, .d3 it, .d3 jt,
      .d1 ((D.masses.map fun x : V => (x.map (· * u.m)).map rnd).map fun x : V => x.map (· / v.m)),
      .d2 ((D.centers.map fun row => row.map fun x : V => (x.map (· * u.l)).map rnd).map
        fun row => row.map fun x : V => x.map (· / v.l))⟩ := by
    simp only [Data.cat, Data.loaded, hdt, hqt, hst, hmt, hit, hjt, List.map_map, Function.comp_def]
  rw [goal_eq]
  cases k with
  | loc =>
    have hr : 2 ≤ r := hr
    rcases Nat.lt_or_ge 1 n with hn2 | hn1
    · -- several objects
      have e1 : load f .d = .ok (.d2 dt) := by rw [load_some hs.d]; exact loadtxt_table hn2 hr hdT
      have e2 : load f .q = .ok (.d2 qt) := by rw [load_some hs.q]; exact loadtxt_table hn2 hr hqT
      have e3 : load f .s = .ok (.d2 st) := by rw [load_some hs.s]; exact loadtxt_table hn2 hr hsT
      have e4 : load f .minor = .ok (.d2 (mt.map List.flatten)) := by
        rw [lm]; exact loadtxt_table hn2 (by omega) fmin
      have e5 : load f .inter = .ok (.d2 (it.map List.flatten)) := by
        rw [li]; exact loadtxt_table hn2 (by omega) fint
      have e6 : load f .major = .ok (.d2 (jt.map List.flatten)) := by
        rw [lj]; exact loadtxt_table hn2 (by omega) fmaj
      have e7 : load f .m = .ok (.d1 (D.masses.map fun x => (x.map (· * u.m)).map rnd)) := by
        rw [load_some hs.m]
        have := loadtxt_column hn2 (D.masses.map fun x => (x.map (· * u.m)).map rnd) (by simp [hD.masses])
        rw [List.map_map] at this
        exact this
      have e8 := loadtxt_table hn2 (by omega) hcT
      rw [← load_some hs.centers] at e8
      have t4 : triples (.d2 (mt.map List.flatten)) = .ok (.d3 mt) := by
        have := reshape_table hn hmin.1 hmin.2 (.d2 (mt.map List.flatten)) rfl
        simp only [triples, Nd.shape0, bind, Except.bind, fmin.1, this]
      have t5 : triples (.d2 (it.map List.flatten)) = .ok (.d3 it) := by
        have := reshape_table hn hint.1 hint.2 (.d2 (it.map List.flatten)) rfl
        simp only [triples, Nd.shape0, bind, Except.bind, fint.1, this]
      have t6 : triples (.d2 (jt.map List.flatten)) = .ok (.d3 jt) := by
        have := reshape_table hn hmaj.1 hmaj.2 (.d2 (jt.map List.flatten)) rfl
        simp only [triples, Nd.shape0, bind, Except.bind, fmaj.1, this]
      have hne : ¬(dt.length = 0) := by rw [hdT.1]; omega
      simp only [loadCat, loadLocal, loadAll, bind, Except.bind, e1, e2, e3, e4, e5, e6, e7, e8, pure, Except.pure,
          Nd.over, Nd.map, Nd.shape0, List.length_map, ne_eq, hne, not_false_eq_true, if_true, t4, t5, t6]
    · -- one object
      have hn1 : n = 1 := by omega
      subst hn1
      obtain ⟨dr, hdr⟩ := List.length_eq_one_iff.mp hdT.1
      obtain ⟨qr, hqr⟩ := List.length_eq_one_iff.mp hqT.1
      obtain ⟨sr, hsr⟩ := List.length_eq_one_iff.mp hsT.1
      obtain ⟨mr, hmr⟩ := List.length_eq_one_iff.mp hmin.1.1
      obtain ⟨ir, hir⟩ := List.length_eq_one_iff.mp hint.1.1
      obtain ⟨jr, hjr⟩ := List.length_eq_one_iff.mp hmaj.1.1
      obtain ⟨cr, hcr⟩ := List.length_eq_one_iff.mp hcT.1
      obtain ⟨xm, hxm⟩ := List.length_eq_one_iff.mp hD.masses
      have e1 : load f .d = .ok (.d1 dr) := by
        rw [load_some hs.d, ← hdt, hdr]
        exact loadtxt_row hr dr (hdT.2 dr (by rw [hdr]; simp))
      have e2 : load f .q = .ok (.d1 qr) := by
        rw [load_some hs.q, ← hqt, hqr]
        exact loadtxt_row hr qr (hqT.2 qr (by rw [hqr]; simp))
      have e3 : load f .s = .ok (.d1 sr) := by
        rw [load_some hs.s, ← hst, hsr]
        exact loadtxt_row hr sr (hsT.2 sr (by rw [hsr]; simp))
      have e4 : load f .minor = .ok (.d1 mr.flatten) := by
        rw [lm, hmr]
        exact loadtxt_row (c := r * 3) (by omega) mr.flatten (fmin.2 _ (by rw [hmr]; simp))
      have e5 : load f .inter = .ok (.d1 ir.flatten) := by
        rw [li, hir]
        exact loadtxt_row (c := r * 3) (by omega) ir.flatten (fint.2 _ (by rw [hir]; simp))
      have e6 : load f .major = .ok (.d1 jr.flatten) := by
        rw [lj, hjr]
        exact loadtxt_row (c := r * 3) (by omega) jr.flatten (fmaj.2 _ (by rw [hjr]; simp))
      have e7 : load f .m = .ok (.d0 ((xm.map (· * u.m)).map rnd)) := by
        rw [load_some hs.m, hxm]
        exact loadtxt_number _
      have hcrl : cr.length = 3 := hcT.2 cr (by rw [hcr]; simp)
      have e8 : load f .centers = .ok (.d1 cr) := by
        rw [load_some hs.centers, hcr]
        exact loadtxt_row (c := 3) (by omega) cr hcrl
      have t4 : (Nd.d1 mr.flatten).reshapeTriples 1 = .ok (.d3 mt) :=
        reshape_table hn hmin.1 hmin.2 _ (by rw [hmr]; simp [Nd.flat])
      have t5 : (Nd.d1 ir.flatten).reshapeTriples 1 = .ok (.d3 it) :=
        reshape_table hn hint.1 hint.2 _ (by rw [hir]; simp [Nd.flat])
      have t6 : (Nd.d1 jr.flatten).reshapeTriples 1 = .ok (.d3 jt) :=
        reshape_table hn hmaj.1 hmaj.2 _ (by rw [hjr]; simp [Nd.flat])
      simp only [loadCat, loadLocal, loadAll, bind, Except.bind, e1, e2, e3, e4, e5, e6, e7, e8, pure, Except.pure,
          Nd.over, Nd.map, Nd.shape0, t4, t5, t6, Nd.asCenter, Nd.flat, List.length_map, hcrl, if_true, hqr, hsr,
          Nd.asRow, wrap, hdr, hcr, hxm, List.map_cons, List.map_nil]
  | glob =>
    have hr : r = 1 := hr
    subst hr
    have col : ∀ l : List (List V), IsTable n 1 l → l = l.flatten.map fun x => [x] := by
      intro l hl
      have key : ∀ l : List (List V), (∀ row ∈ l, row.length = 1) → l = l.flatten.map fun x => [x] := by
        intro l hl
        induction l with
        | nil => rfl
        | cons a l ih =>
          obtain ⟨x, rfl⟩ := List.length_eq_one_iff.mp (hl a List.mem_cons_self)
          rw [List.flatten_cons, List.map_append, ← ih fun row hrow => hl row (List.mem_cons_of_mem _ hrow)]
          rfl
      exact key l hl.2
    rcases Nat.lt_or_ge 1 n with hn2 | hn1
    · have c1 := loadtxt_column hn2 dt.flatten (by rw [length_flatten_table hdT]; omega)
      have c2 := loadtxt_column hn2 qt.flatten (by rw [length_flatten_table hqT]; omega)
      have c3 := loadtxt_column hn2 st.flatten (by rw [length_flatten_table hsT]; omega)
      rw [← col dt hdT] at c1
      rw [← col qt hqT] at c2
      rw [← col st hsT] at c3
      have e1 : load f .d = .ok (.d1 dt.flatten) := by rw [load_some hs.d]; exact c1
      have e2 : load f .q = .ok (.d1 qt.flatten) := by rw [load_some hs.q]; exact c2
      have e3 : load f .s = .ok (.d1 st.flatten) := by rw [load_some hs.s]; exact c3
      have e4 : load f .minor = .ok (.d2 (mt.map List.flatten)) := by
        rw [lm]; exact loadtxt_table hn2 (by omega) fmin
      have e5 : load f .inter = .ok (.d2 (it.map List.flatten)) := by
        rw [li]; exact loadtxt_table hn2 (by omega) fint
      have e6 : load f .major = .ok (.d2 (jt.map List.flatten)) := by
        rw [lj]; exact loadtxt_table hn2 (by omega) fmaj
      have e7 : load f .m = .ok (.d1 (D.masses.map fun x => (x.map (· * u.m)).map rnd)) := by
        rw [load_some hs.m]
        have := loadtxt_column hn2 (D.masses.map fun x => (x.map (· * u.m)).map rnd) (by simp [hD.masses])
        rw [List.map_map] at this
        exact this
      have e8 := loadtxt_table hn2 (by omega) hcT
      rw [← load_some hs.centers] at e8
      have t4 : triples (.d2 (mt.map List.flatten)) = .ok (.d3 mt) := by
        have := reshape_table hn hmin.1 hmin.2 (.d2 (mt.map List.flatten)) rfl
        simp only [triples, Nd.shape0, bind, Except.bind, fmin.1, this]
      have t5 : triples (.d2 (it.map List.flatten)) = .ok (.d3 it) := by
        have := reshape_table hn hint.1 hint.2 (.d2 (it.map List.flatten)) rfl
        simp only [triples, Nd.shape0, bind, Except.bind, fint.1, this]
      have t6 : triples (.d2 (jt.map List.flatten)) = .ok (.d3 jt) := by
        have := reshape_table hn hmaj.1 hmaj.2 (.d2 (jt.map List.flatten)) rfl
        simp only [triples, Nd.shape0, bind, Except.bind, fmaj.1, this]
      have hlen : dt.flatten.length = n := by rw [length_flatten_table hdT]; omega
      obtain ⟨x, xs, hx⟩ : ∃ x xs, dt.flatten = x :: xs :=
        List.exists_cons_of_ne_nil (by intro h; rw [h] at hlen; simp at hlen; omega)
      simp only [loadCat, loadGlobal, loadAll, bind, Except.bind, e1, e2, e3, e4, e5, e6, e7, e8, pure, Except.pure,
          Nd.over, Nd.map, t4, t5, t6, hx, List.map_cons]
      simp only [Nd.asColumn, Nd.flat, ← col qt hqT, ← col st hsT]
      congr 2
      conv_rhs => rw [col dt hdT, hx]
      simp only [List.map_map, Function.comp_def, List.map_cons, List.map_nil]
    · have hn1 : n = 1 := by omega
      subst hn1
      have one : ∀ l : List (List V), IsTable 1 1 l → ∃ x, l = [[x]] := by
        intro l hl
        obtain ⟨row, hrow⟩ := List.length_eq_one_iff.mp hl.1
        obtain ⟨x, hx⟩ := List.length_eq_one_iff.mp (hl.2 row (by rw [hrow]; simp))
        exact ⟨x, by rw [hrow, hx]⟩
      obtain ⟨dx, hdx⟩ := one dt hdT
      obtain ⟨qx, hqx⟩ := one qt hqT
      obtain ⟨sx, hsx⟩ := one st hsT
      obtain ⟨mr, hmr⟩ := List.length_eq_one_iff.mp hmin.1.1
      obtain ⟨ir, hir⟩ := List.length_eq_one_iff.mp hint.1.1
      obtain ⟨jr, hjr⟩ := List.length_eq_one_iff.mp hmaj.1.1
      obtain ⟨cr, hcr⟩ := List.length_eq_one_iff.mp hcT.1
      obtain ⟨xm, hxm⟩ := List.length_eq_one_iff.mp hD.masses
      have e1 : load f .d = .ok (.d0 dx) := by rw [load_some hs.d, ← hdt, hdx]; exact loadtxt_number _
      have e2 : load f .q = .ok (.d0 qx) := by rw [load_some hs.q, ← hqt, hqx]; exact loadtxt_number _
      have e3 : load f .s = .ok (.d0 sx) := by rw [load_some hs.s, ← hst, hsx]; exact loadtxt_number _
      have e4 : load f .minor = .ok (.d1 mr.flatten) := by
        rw [lm, hmr]
        exact loadtxt_row (c := 1 * 3) (by omega) mr.flatten (fmin.2 _ (by rw [hmr]; simp))
      have e5 : load f .inter = .ok (.d1 ir.flatten) := by
        rw [li, hir]
        exact loadtxt_row (c := 1 * 3) (by omega) ir.flatten (fint.2 _ (by rw [hir]; simp))
      have e6 : load f .major = .ok (.d1 jr.flatten) := by
        rw [lj, hjr]
        exact loadtxt_row (c := 1 * 3) (by omega) jr.flatten (fmaj.2 _ (by rw [hjr]; simp))
      have e7 : load f .m = .ok (.d0 ((xm.map (· * u.m)).map rnd)) := by
        rw [load_some hs.m, hxm]
        exact loadtxt_number _
      have hcrl : cr.length = 3 := hcT.2 cr (by rw [hcr]; simp)
      have e8 : load f .centers = .ok (.d1 cr) := by
        rw [load_some hs.centers, hcr]
        exact loadtxt_row (c := 3) (by omega) cr hcrl
      have t4 : (Nd.d1 mr.flatten).reshapeTriples 1 = .ok (.d3 mt) :=
        reshape_table hn hmin.1 hmin.2 _ (by rw [hmr]; simp [Nd.flat])
      have t5 : (Nd.d1 ir.flatten).reshapeTriples 1 = .ok (.d3 it) :=
        reshape_table hn hint.1 hint.2 _ (by rw [hir]; simp [Nd.flat])
      have t6 : (Nd.d1 jr.flatten).reshapeTriples 1 = .ok (.d3 jt) :=
        reshape_table hn hmaj.1 hmaj.2 _ (by rw [hjr]; simp [Nd.flat])
      simp only [loadCat, loadGlobal, loadAll, bind, Except.bind, e1, e2, e3, e4, e5, e6, e7, e8, pure, Except.pure,
          Nd.over, Nd.map, t4, t5, t6, Nd.asCenter, Nd.flat, List.length_map, hcrl, if_true, hqx, hsx,
          Nd.asRow, wrap, hdx, hcr, hxm, List.map_cons, List.map_nil]

/-- Read in other units `v`, the answer has the numbers written with `u`. -/
theorem loaded_answer (D : Data) (rnd : ℝ → ℝ) (u v : Out) (hl : v.l ≠ 0) :
    (D.loaded rnd u v).answer v = (D.answer u).round rnd := by
  have h := times_over_map v.l hl D.d fun x => (x.map (· * u.l)).map rnd
  simp only [List.map_map, Function.comp_def] at h
  simp only [Data.answer, Data.loaded, Shapes.round, List.map_map, Function.comp_def, Shapes.mk.injEq, and_true]
  exact h

/-- C60, general form: a stored catalogue for `n` objects is returned, with the numbers of the files. -/
theorem get_stored (k : Kind) (f : Files) (rnd : ℝ → ℝ) (u v : Out) (hl : v.l ≠ 0) (n r : Nat) (hn : 1 ≤ n)
    (hr : k.Radii r) (D : Data) (hD : D.Good n r) (hs : Holds f rnd u D) (other : Cat) :
    get k f v n r other = .ok ((D.answer u).round rnd) := by
  have hb : getBase k f v other = .ok (D.loaded rnd u v).cat := by
    unfold getBase
    rw [hs.d]
    exact load_stored k f rnd u v n r hn hr D hD hs
  rw [get_of_base (hD.loaded rnd u v) hb, loaded_answer D rnd u v hl]

end Verif.Stored
