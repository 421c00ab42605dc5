import Mathlib.Data.List.Basic

/-!
# Objects from the halo finder AHF (C127)

* `/repo/example_scripts/apply_ahf.py:181-191`: the particle lists of the first five halos, from the files AHF writes.
-/

namespace Verif.Misc

/-! ## Specification: what AHF writes -/

/-- A halo: its number and its particles, each with its type. -/
structure AhfHalo where
  id : Int
  ptcs : List (Int × Int)

/-- File `…AHF_particles`: number of halos; for each halo a line with number of particles and number of the halo, then a line per
particle with its index and type. -/
def particleFile (hs : List AhfHalo) : List (List Int) :=
  [(hs.length : Int)] :: hs.flatMap fun h => [(h.ptcs.length : Int), h.id] :: h.ptcs.map fun p => [p.1, p.2]

/-- Column `npart` of the file `…AHF_halos`. -/
def npartColumn (hs : List AhfHalo) : List Nat := hs.map fun h => h.ptcs.length

/-! ## Model -/

/-- Why reading may fail: lines of unequal length; an index or slice of a number. -/
inductive AhfErr
  | ragged | index
  deriving DecidableEq

/-- `np.loadtxt(…, skiprows=2, unpack=True, dtype=int)[0]`, apply_ahf.py:185: first column of the lines after the first two.  A file
of one line gives one-dimensional data, whose entry 0 is a number; the slices of line 189 then fail, as does `[0]` without lines. -/
def loadColumn0 (lines : List (List Int)) : Except AhfErr (List Int) :=
  match lines.drop 2 with
  | [] => .error .index
  | [_] => .error .index
  | a :: b :: rest =>
    if (b :: rest).all fun l => l.length == a.length then .ok ((a :: b :: rest).map fun l => l.headD 0) else .error .ragged

/-- `np.int32(ahf_halos[4])[:5]`, apply_ahf.py:182-183: `loadtxt(…, unpack=True)` gives one row per column if there are several
halos; one halo gives one-dimensional data, and `[:5]` of a number fails; no halo: `ahf_halos[4]` fails. -/
def sizes5 (npart : List Nat) : Except AhfErr (List Nat) :=
  match npart with
  | [] => .error .index
  | [_] => .error .index
  | l => .ok (l.take 5)

/-- Python slice `l[a:b]` with non-negative bounds. -/
def slice (l : List Int) (a b : Nat) : List Int := (l.drop a).take (b - a)

/-- The loop over halos, apply_ahf.py:187-190. -/
def cutOut (col : List Int) : Nat → List Nat → List (List Int)
  | _, [] => []
  | offset, n :: ns => slice col offset (offset + n) :: cutOut col (offset + (n + 1)) ns

/-- `h_indices`, apply_ahf.py:182-190. -/
def hIndices (npart : List Nat) (lines : List (List Int)) : Except AhfErr (List (List Int)) :=
  match sizes5 npart with
  | .error e => .error e
  | .ok ns =>
    match loadColumn0 lines with
    | .error e => .error e
    | .ok col => .ok (cutOut col 0 ns)

/-! ## Proofs -/

/-- First column of the particle lists, without the first line of the first halo. -/
def body : List AhfHalo → List Int
  | [] => []
  | h :: hs => h.ptcs.map Prod.fst ++ (match hs with | [] => [] | h' :: _ => (h'.ptcs.length : Int) :: body hs)

theorem cutOut_body (col : List Int) (hs : List AhfHalo) (k offset : Nat) (h : col.drop offset = body hs) :
    cutOut col offset ((hs.take k).map fun h => h.ptcs.length) = (hs.take k).map fun h => h.ptcs.map Prod.fst := by
  induction hs generalizing k offset with
  | nil => simp [cutOut]
  | cons a hs ih =>
    cases k with
    | zero => simp [cutOut]
    | succ k =>
      simp only [List.take_succ_cons, List.map_cons, cutOut]
      have hl : (a.ptcs.map Prod.fst).length = a.ptcs.length := List.length_map _
      have hslice : slice col offset (offset + a.ptcs.length) = a.ptcs.map Prod.fst := by
        unfold slice
        rw [h, Nat.add_sub_cancel_left]
        unfold body
        rw [← hl]
        exact List.take_left
      rw [hslice]
      congr 1
      cases hs with
      | nil => simp [cutOut]
      | cons b hs =>
        apply ih
        rw [← List.drop_drop, h]
        show ((a.ptcs.map Prod.fst) ++ ((b.ptcs.length : Int) :: body (b :: hs))).drop _ = _
        rw [← hl, List.drop_append]
        simp

theorem column_body (h : AhfHalo) (hs : List AhfHalo) :
    ((particleFile (h :: hs)).drop 2).map (fun l => l.headD 0) = body (h :: hs) := by
  induction hs generalizing h with
  | nil => simp [particleFile, body, Function.comp_def]
  | cons b hs ih =>
    have := ih b
    simp only [particleFile, List.flatMap_cons, List.cons_append, List.drop_succ_cons, List.drop_zero, List.map_append,
      List.map_cons, List.map_map, List.headD_cons] at this ⊢
    show _ = h.ptcs.map Prod.fst ++ ((b.ptcs.length : Int) :: body (b :: hs))
    rw [← this]
    simp [Function.comp_def]

theorem widths (hs : List AhfHalo) : ∀ l ∈ (particleFile hs).drop 1, l.length = 2 := by
  intro l hl
  simp only [particleFile, List.drop_succ_cons, List.drop_zero, List.mem_flatMap, List.mem_cons, List.mem_map] at hl
  obtain ⟨h, _, rfl | ⟨p, _, rfl⟩⟩ := hl <;> rfl

/-- C127 (part). For every set of at least two halos, each with at least one particle, the lists handed to `DensShapeProfs` are the
particles of the first five halos (of all if there are fewer), in the order of the file.  Missing: a single halo, for which it is
false (`C127_single_refuted`). -/
theorem C127_particles_partial (hs : List AhfHalo) (h2 : 2 ≤ hs.length) (hne : ∀ h ∈ hs, h.ptcs ≠ []) :
    hIndices (npartColumn hs) (particleFile hs) = .ok ((hs.take 5).map fun h => h.ptcs.map Prod.fst) := by
  match hs, h2 with
  | a :: b :: hs, _ =>
    have hsizes : sizes5 (npartColumn (a :: b :: hs)) = .ok (((a :: b :: hs).take 5).map fun h => h.ptcs.length) := by
      simp [sizes5, npartColumn]
    have hcol : loadColumn0 (particleFile (a :: b :: hs)) = .ok (body (a :: b :: hs)) := by
      have hw := widths (a :: b :: hs)
      have hb := column_body a (b :: hs)
      unfold loadColumn0
      have ha := hne a (by simp)
      cases hp : a.ptcs with
      | nil => exact absurd hp ha
      | cons p ps =>
        cases hd : (particleFile (a :: b :: hs)).drop 2 with
        | nil =>
          have := congrArg List.length hd
          simp [particleFile, hp] at this
        | cons x xs =>
          cases xs with
          | nil =>
            have := congrArg List.length hd
            simp [particleFile, hp] at this
          | cons y ys =>
            have hmem : ∀ l ∈ x :: y :: ys, l.length = 2 := by
              intro l hl
              rw [← hd] at hl
              apply hw
              rw [show 2 = 1 + 1 from rfl, ← List.drop_drop] at hl
              exact List.mem_of_mem_drop hl
            have hall : ((y :: ys).all fun l => l.length == x.length) = true := by
              rw [List.all_eq_true]
              intro l hl
              rw [hmem l (List.mem_cons_of_mem _ hl), hmem x (by simp)]
              rfl
            simp only [hall, if_true]
            rw [← hb, hd]
    unfold hIndices
    rw [hsizes, hcol]
    simp only
    rw [cutOut_body]
    simp

/-- C127 is false for a single halo: reading its list of particles fails, whatever the particles. -/
theorem C127_single_refuted (h : AhfHalo) : hIndices (npartColumn [h]) (particleFile [h]) = .error .index := rfl

/-- Three halos of two, one and three particles. -/
example : hIndices (npartColumn [⟨7, [(4, 1), (9, 1)]⟩, ⟨8, [(5, 1)]⟩, ⟨9, [(1, 1), (2, 4), (3, 1)]⟩])
    (particleFile [⟨7, [(4, 1), (9, 1)]⟩, ⟨8, [(5, 1)]⟩, ⟨9, [(1, 1), (2, 4), (3, 1)]⟩]) =
    .ok [[4, 9], [5], [1, 2, 3]] := by decide

end Verif.Misc
