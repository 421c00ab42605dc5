import Verif.Catalogue.Lemmas

/-!
# Catalogues in 32-bit integers (C146)

`DensShapeProfs.__init__` stores particle numbers with `np.int32(idx_cat[p])` (shape_profs_classes.pyx:504-509), and the numerical
routines compute the borders of the objects with `np.int32(np.hstack(([0], np.cumsum(obj_size))))` (dens_profs_algos.pyx:36, 80,
152, 248; shape_profs_algos.pyx:557, 669, 782, 901) and cut the objects out with `idx_cat.base[offsets[p]:offsets[p+1]]`
(dens_profs_algos.pyx:40).  The other models ignore the size of the integers; here they are modelled.  Only numpy's conversion of
arrays is modelled (it drops the upper bits; lists of Python integers raise an OverflowError in recent versions of numpy).
-/

namespace Verif.Catalogue

/-! ## Model -/

/-- Conversion of a 64-bit integer array to `np.int32`. -/
def wrap32 (z : Int) : Int := (z + 2 ^ 31) % 2 ^ 32 - 2 ^ 31

/-- `cat_arr` of objects which pass the resolution cut, shape_profs_classes.pyx:504-509. -/
def catalogue32 (objs : List (List Nat)) : List Int := (objs.flatten.map fun n : Nat => wrap32 n)

/-- `offsets`, dens_profs_algos.pyx:36. -/
def offsets32 (sizes : List Nat) : List Int := (offsets sizes).map fun n : Nat => wrap32 n

/-- Border of a numpy slice of an array of `n` elements: negative numbers count from the end. -/
def sliceBorder (n : Nat) (i : Int) : Nat := if i < 0 then (i + n).toNat else min i.toNat n

/-- `arr[a:b]`. -/
def slice {P : Type} (l : List P) (a b : Int) : List P :=
  (l.drop (sliceBorder l.length a)).take (sliceBorder l.length b - sliceBorder l.length a)

/-- `idx_cat.base[offsets[p]:offsets[p+1]]`, dens_profs_algos.pyx:40. -/
def objSlice32 (idxCat : List Int) (sizes : List Nat) (p : Nat) : Option (List Int) :=
  match (offsets32 sizes)[p]?, (offsets32 sizes)[p + 1]? with
  | some a, some b => some (slice idxCat a b)
  | _, _ => none

/-- `arr[i]` of an array of `n` elements: which element, `none` = IndexError. -/
def element (n : Nat) (i : Int) : Option Nat :=
  if 0 ≤ i then (if i < n then some i.toNat else none) else if -(n : Int) ≤ i then some (i + n).toNat else none

/-- The particles (of `n`) of which object `p` consists for the numerical routines. -/
def members32 (n : Nat) (objs : List (List Nat)) (p : Nat) : Option (List Nat) :=
  (objSlice32 (catalogue32 objs) (objs.map List.length) p).bind fun l => l.mapM (element n)

/-! ## Theorems -/

theorem wrap32_small {n : Nat} (h : n < 2 ^ 31) : wrap32 n = n := by
  unfold wrap32; omega

theorem objSlice32_eq (objs : List (List Nat)) (htot : objs.flatten.length < 2 ^ 31) (p : Nat) (o : List Nat)
    (ho : objs[p]? = some o) :
    objSlice32 (catalogue32 objs) (objs.map List.length) p = some (o.map fun n : Nat => wrap32 n) := by
  have hlt : p < objs.length := (List.getElem?_eq_some_iff.1 ho).1
  have hsl := objSlice_eq (objs.map (List.map fun n : Nat => wrap32 n)) p (o.map fun n : Nat => wrap32 n) (by simp [ho])
  have hlen : (objs.map (List.map fun n : Nat => wrap32 n)).map List.length = objs.map List.length := by
    rw [List.map_map]; congr 1; funext l; simp
  rw [hlen] at hsl
  have hflat : (objs.map (List.map fun n : Nat => wrap32 n)).flatten = catalogue32 objs := by
    unfold catalogue32; rw [List.map_flatten]
  rw [hflat] at hsl
  unfold objSlice at hsl
  unfold objSlice32 offsets32
  have hle : ∀ q, ((objs.map List.length).take q).sum ≤ objs.flatten.length := by
    intro q
    rw [List.length_flatten]
    have := List.sum_take_add_sum_drop (objs.map List.length) q
    omega
  have h1 := offsetsFrom_getElem? 0 (objs.map List.length) p (by simp; omega)
  have h2 := offsetsFrom_getElem? 0 (objs.map List.length) (p + 1) (by simp; omega)
  unfold offsets at hsl ⊢
  rw [h1, h2] at hsl
  simp only [Nat.zero_add] at hsl h1 h2
  rw [List.getElem?_map, List.getElem?_map, h1, h2]
  simp only [Option.map_some]
  have ha := hle p
  have hb := hle (p + 1)
  rw [wrap32_small (by omega), wrap32_small (by omega)]
  rw [← hsl]
  unfold slice sliceBorder
  have hl : (catalogue32 objs).length = objs.flatten.length := by unfold catalogue32; rw [List.length_map]
  rw [hl, if_neg (by omega), if_neg (by omega), Int.toNat_natCast, Int.toNat_natCast, Nat.min_eq_left ha, Nat.min_eq_left hb]

/-- C146. With fewer than 2^31 particles, in the simulation and in all objects together, every object consists of exactly the
particles listed for it. -/
theorem C146_members_partial (n : Nat) (hn : n ≤ 2 ^ 31) (objs : List (List Nat)) (htot : objs.flatten.length < 2 ^ 31)
    (hex : ∀ o ∈ objs, ∀ i ∈ o, i < n) (p : Nat) (o : List Nat) (ho : objs[p]? = some o) : members32 n objs p = some o := by
  unfold members32
  rw [objSlice32_eq objs htot p o ho, Option.bind_some]
  have hmem : ∀ i ∈ o, i < n := hex o (List.mem_of_getElem? ho)
  clear ho htot hex
  induction o with
  | nil => rfl
  | cons i o ih =>
    have hi := hmem i List.mem_cons_self
    rw [List.map_cons, List.mapM_cons, ih fun j hj => hmem j (List.mem_cons_of_mem _ hj)]
    have : element n (wrap32 i) = some i := by
      rw [wrap32_small (by omega)]
      unfold element
      rw [if_pos (by omega), if_pos (by omega), Int.toNat_natCast]
    rw [this]
    rfl

/-- C146. In a simulation of more than 2^31 particles, an object which consists of particle number `i ≥ 2^31` is, for the numerical
routines, another particle: no error is raised. -/
theorem C146_number_refuted (n i : Nat) (hi : 2 ^ 31 ≤ i) (hin : i < n) (hn : n < 2 ^ 32) :
    ∃ j, members32 n [[i]] 0 = some [j] ∧ j < n ∧ j ≠ i := by
  have hw : wrap32 (i : Int) = (i : Int) - 2 ^ 32 := by unfold wrap32; omega
  have hsl := objSlice32_eq [[i]] (by simp) 0 [i] rfl
  unfold members32
  rw [hsl, Option.bind_some]
  by_cases h : -(n : Int) ≤ wrap32 i
  · refine ⟨(wrap32 i + n).toNat, ?_, by omega, by omega⟩
    have : element n (wrap32 i) = some (wrap32 i + n).toNat := by
      unfold element; rw [if_neg (by omega), if_pos h]
    simp [this]
  · omega

/-- C146. Three objects with 2^30, 2^30 and 1 particles: for the numerical routines the second one is empty. -/
theorem C146_offsets_refuted (n : Nat) (a b c : List Nat) (ha : a.length = 2 ^ 30) (hb : b.length = 2 ^ 30) (hc : c.length = 1) :
    members32 n [a, b, c] 1 = some [] := by
  have hs : [a, b, c].map List.length = [2 ^ 30, 2 ^ 30, 1] := by simp [ha, hb, hc]
  have ho : offsets32 [2 ^ 30, 2 ^ 30, 1] = [0, 2 ^ 30, -2 ^ 31, -2 ^ 31 + 1] := by decide
  unfold members32 objSlice32
  rw [hs, ho]
  have hl : (catalogue32 [a, b, c]).length = 2 ^ 31 + 1 := by
    unfold catalogue32; simp [ha, hb, hc]
  have : slice (catalogue32 [a, b, c]) (2 ^ 30) (-2 ^ 31) = [] := by
    unfold slice
    have h1 : sliceBorder (catalogue32 [a, b, c]).length (2 ^ 30) = 2 ^ 30 := by unfold sliceBorder; rw [hl]; decide
    have h2 : sliceBorder (catalogue32 [a, b, c]).length (-2 ^ 31) = 1 := by unfold sliceBorder; rw [hl]; decide
    rw [h1, h2]
    simp
  simp only [List.getElem?_cons_succ, List.getElem?_cons_zero]
  rw [this]
  rfl

/-- Two objects of a simulation of ten particles. -/
example : members32 10 [[3, 1], [9, 0, 5]] 1 = some [9, 0, 5] :=
  C146_members_partial 10 (by norm_num) _ (by decide) (by decide) 1 _ rfl

/-- Particle 2^31 + 5 of 3 * 10^9. -/
example : ∃ j, members32 3000000000 [[2 ^ 31 + 5]] 0 = some [j] ∧ j < 3000000000 ∧ j ≠ 2 ^ 31 + 5 :=
  C146_number_refuted _ _ (by norm_num) (by norm_num) (by norm_num)

/-- Such objects exist. -/
example : ∃ a b c : List Nat, a.length = 2 ^ 30 ∧ b.length = 2 ^ 30 ∧ c.length = 1 :=
  ⟨List.replicate (2 ^ 30) 0, List.replicate (2 ^ 30) 1, [2], List.length_replicate, List.length_replicate, rfl⟩

end Verif.Catalogue
