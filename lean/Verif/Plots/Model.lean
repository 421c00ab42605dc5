import Mathlib.Data.Real.Archimedean
import Mathlib.Analysis.SpecialFunctions.Log.Base

/-!
# Names of the files of pictures, and histograms: model

shape_profs_tools.py:153-437, dens_profs_tools.py:186-211, shape_profs_classes.pyx:241, 317.
-/

namespace Verif.Plots

/-! ## Formatting of numbers -/

/-- Rounding to the nearest integer, halves to the even one, for numbers which are not negative. -/
noncomputable def roundEven (x : ℝ) : Nat :=
  let n := ⌊x⌋₊
  if x - n < 1 / 2 then n
  else if 1 / 2 < x - n then n + 1
  else if n % 2 = 0 then n else n + 1

/-- `"{:.2f}".format(x)` for a finite number. -/
noncomputable def fixed2 (x : ℝ) : List Char :=
  let k := roundEven (100 * |x|)
  (if x < 0 then ['-'] else []) ++ (Nat.toDigits 10 (k / 100) ++ ['.', (k / 10 % 10).digitChar, (k % 10).digitChar])

/-! ## Names of files -/

/-- The three quantities with curves. -/
inductive Curve where
  | q | s | T

/-- The letter used in names of files. -/
def Curve.letter : Curve → Char
  | .q => 'q'
  | .s => 's'
  | .T => 'T'

/-- The pictures made for one catalogue; `m` is the lower edge of a mass bin (positive). -/
inductive Picture where
  | curve (c : Curve)
  | curveOfBin (c : Curve) (m : ℝ)
  | localT
  | globalT
  | localEps
  | globalEps
  | localObj (n : Nat)
  | globalObj (n : Nat)
  | dens
  | densOfBin (m : ℝ)

/-- Where pictures go: `VIZ_DEST`, `SUFFIX`, `SNAP`. -/
structure Place where
  dest : List Char
  suffix : List Char
  snap : List Char

/-- The ending of all names. -/
def pdf : List Char := ['.', 'p', 'd', 'f']

/-- Names of the files.  Curves: shape_profs_tools.py:163, 174, 194; mass bins: 207, 220, 234; histograms: 294, 349,
391, 437; three-dimensional pictures: shape_profs_classes.pyx:241, 317; density profiles: dens_profs_tools.py:186,
211 (these do not use the suffix; `f32` is the rounding to single precision).
Names are lists of characters. -/
noncomputable def fileName (f32 : ℝ → ℝ) (w : Place) (p : Picture) : List Char :=
  w.dest ++ '/' :: match p with
  | .curve c => c.letter :: (w.suffix ++ w.snap ++ pdf)
  | .curveOfBin c m => c.letter :: 'M' :: fixed2 (Real.logb 10 m) ++ (w.suffix ++ w.snap ++ pdf)
  | .localT => ['L', 'o', 'c', 'a', 'l', 'T', 'C', 'o', 'u', 'n', 't'] ++ (w.suffix ++ w.snap ++ pdf)
  | .globalT => ['G', 'l', 'o', 'b', 'a', 'l', 'T', 'C', 'o', 'u', 'n', 't'] ++ (w.suffix ++ w.snap ++ pdf)
  | .localEps => ['E', 'p', 's', 'C', 'o', 'u', 'n', 't'] ++ (w.suffix ++ w.snap ++ pdf)
  | .globalEps => ['E', 'p', 's', 'C', 'o', 'u', 'n', 't'] ++ (w.suffix ++ w.snap ++ pdf)
  | .localObj n => ['L', 'o', 'c', 'a', 'l', 'O', 'b', 'j'] ++ Nat.toDigits 10 n ++ (w.suffix ++ w.snap ++ pdf)
  | .globalObj n => ['G', 'l', 'o', 'b', 'a', 'l', 'O', 'b', 'j'] ++ Nat.toDigits 10 n ++ (w.suffix ++ w.snap ++ pdf)
  | .dens => ['R', 'h', 'o', 'P', 'r', 'o', 'f'] ++ ('_' :: w.snap ++ pdf)
  | .densOfBin m => ['R', 'h', 'o', 'P', 'r', 'o', 'f', 'M'] ++ fixed2 (f32 (Real.logb 10 m)) ++ ('_' :: w.snap ++ pdf)

/-- The folder: which picture of which place is in the file of a given name. -/
abbrev Folder := List Char → Option (Place × Picture)

open Classical in
/-- `plt.savefig(name)`: an existing file is replaced. -/
noncomputable def save (f32 : ℝ → ℝ) (w : Place) (folder : Folder) (p : Picture) : Folder :=
  fun name => if name = fileName f32 w p then some (w, p) else folder name

/-- Suffix of array-based catalogues, shape_profs_classes.pyx:513. -/
def arraySuffix : List Char := ['_']

/-- Suffix of Gadget-based catalogues for the type of objects (`'dm'`, `'gas'`, `'stars'`, …),
shape_profs_classes.pyx:567. -/
def gadgetSuffix (objType : List Char) : List Char := '_' :: objType ++ ['_']

/-! ## Histograms -/

/-- `np.linspace(0, 1, HIST_NB_BINS)` for two or more edges. -/
noncomputable def edges (nb : Nat) : List ℝ := (List.range nb).map fun k : Nat => (k : ℝ) / ((nb : ℝ) - 1)

/-- `np.histogram(values, edges)[0]` for increasing edges: bins are half-open, the last one is closed. -/
noncomputable def counts (es : List ℝ) (vs : List ℝ) : List Nat :=
  (List.range (es.length - 1)).map fun i =>
    vs.countP fun v => decide (es.getD i 0 ≤ v ∧ (v < es.getD (i + 1) 0 ∨ i + 2 = es.length ∧ v = es.getD (i + 1) 0))

/-- The heights of the bars, `plt.hist(values, bins = np.linspace(0, 1, HIST_NB_BINS), density = True)`,
shape_profs_tools.py:286, 341, 386, 432; `none` is NaN (NaN values are ignored). -/
noncomputable def histogram (nb : Nat) (vs : List (Option ℝ)) : List (Option ℝ) :=
  let es := edges nb
  let c := counts es (vs.filterMap id)
  c.zipIdx.map fun (n, i) =>
    if c.sum = 0 then none else some ((n : ℝ) / (es.getD (i + 1) 0 - es.getD i 0) / c.sum)

end Verif.Plots
