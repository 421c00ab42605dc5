import Verif.Cache.Props
import Mathlib.Data.Rat.Defs
import Mathlib.Data.String.Basic
import Mathlib.Data.List.Sort

/-!
# Cache keys of calls with positional and keyword arguments (C107)

`_make_key`, `cosmic_profiles/common/caching.py:11-50`.
-/

set_option linter.unusedSectionVars false

namespace Verif.Cache

/-! ## Model -/

/-- Types of arguments; `other`: any further hashable class. -/
inductive Ty where
  | int | float | bool | str | none | tuple | type | frozenset
  | other (n : Nat)
  deriving DecidableEq, Repr

/-- Hashable Python values.  Floats are finite (rational) numbers; a NaN, which is equal to itself only
by identity, a frozenset and instances of other classes are objects with an identity. -/
inductive Py where
  | int (z : Int)
  | bool (b : Bool)
  | float (q : Rat)
  | str (s : String)
  | none
  | tuple (l : List Py)
  | type (t : Ty)
  | obj (t : Ty) (id : Nat)
  deriving Repr

/-- `type(v)`. -/
def Py.ty : Py → Ty
  | .int _ => .int
  | .bool _ => .bool
  | .float _ => .float
  | .str _ => .str
  | .none => .none
  | .tuple _ => .tuple
  | .type _ => .type
  | .obj t _ => t

/-- Value of a number; `bool` is a subclass of `int`. -/
def Py.number? : Py → Option Rat
  | .int z => some z
  | .bool b => some (if b then 1 else 0)
  | .float q => some q
  | _ => Option.none

/-- A value up to Python's equality (and hash); tuples as nested pairs `empty`, `pair`. -/
inductive Canon where
  | num (q : Rat)
  | str (s : String)
  | none
  | empty
  | pair (x rest : Canon)
  | type (t : Ty)
  | obj (t : Ty) (id : Nat)
  deriving DecidableEq, Repr

mutual
/-- The class of a value under Python's `==`. -/
def Py.canon : Py → Canon
  | .int z => .num z
  | .bool b => .num (if b then 1 else 0)
  | .float q => .num q
  | .str s => .str s
  | .none => .none
  | .tuple l => canonList l
  | .type t => .type t
  | .obj t id => .obj t id
/-- The class of a tuple. -/
def canonList : List Py → Canon
  | [] => .empty
  | x :: l => .pair x.canon (canonList l)
end

/-- Element of the tuple `key`: a value or the unique object `kwd_mark`, caching.py:27. -/
inductive Elem where
  | mark
  | val (c : Canon)
  deriving DecidableEq, Repr

/-- A key of the dictionary: a bare value, or a `_HashedSeq`, which is a list and hence equal to lists
with equal elements only, caching.py:11-24. -/
inductive Key where
  | bare (c : Canon)
  | seq (l : List Elem)
  deriving DecidableEq, Repr

/-- Arguments of a call: `*args, **kwds`. -/
structure Args where
  args : List Py
  kwds : List (String × Py)

/-- `fasttypes`, caching.py:28. -/
def Ty.fast : Ty → Bool
  | .int | .str | .frozenset | .none => true
  | _ => false

/-- `sorted(kwds.items())`: names differ, so that values are never compared. -/
def sortedItems (kwds : List (String × Py)) : List (String × Py) :=
  kwds.mergeSort fun a b => decide (a.1 ≤ b.1)

/-- `_make_key`, caching.py:26-50. -/
def makeKey (typed : Bool) (a : Args) : Key :=
  let items := sortedItems a.kwds
  let key := a.args.map (fun v => Elem.val v.canon) ++
    (if a.kwds.isEmpty then [] else
      .mark :: items.flatMap fun kv => [.val (.str kv.1), .val kv.2.canon])
  if typed then
    .seq (key ++ a.args.map (fun v => Elem.val (.type v.ty)) ++
      (if a.kwds.isEmpty then [] else items.map fun kv => Elem.val (.type kv.2.ty)))
  else match a.args, a.kwds with
    | [v], [] => if v.ty.fast then .bare v.canon else .seq key
    | _, _ => .seq key

/-! ## Specification -/

/-- `x == y` in Python. -/
inductive PyEq : Py → Py → Prop
  | number {x y : Py} (r : Rat) (hx : x.number? = some r) (hy : y.number? = some r) : PyEq x y
  | str (s : String) : PyEq (.str s) (.str s)
  | none : PyEq .none .none
  | tuple {l l' : List Py} (h : List.Forall₂ PyEq l l') : PyEq (.tuple l) (.tuple l')
  | type (t : Ty) : PyEq (.type t) (.type t)
  | obj (t : Ty) (id : Nat) : PyEq (.obj t id) (.obj t id)

/-- The keyword argument of the given name. -/
def Args.keyword (a : Args) (name : String) : Option Py := a.kwds.lookup name

/-- Names of keyword arguments differ (Python refuses anything else). -/
def Args.Proper (a : Args) : Prop := (a.kwds.map Prod.fst).Nodup

/-- The two calls agree: positional arguments in order and keyword arguments by name are related. -/
structure Agree (R : Py → Py → Prop) (a b : Args) : Prop where
  positional : List.Forall₂ R a.args b.args
  keywords : ∀ name, Option.Rel R (a.keyword name) (b.keyword name)

/-! ## Lemmas -/

/-- What the canonical form of a value that is not a tuple cannot be. -/
def Canon.isTuple : Canon → Bool
  | .empty | .pair _ _ => true
  | _ => false

theorem canonList_isTuple (l : List Py) : (canonList l).isTuple = true := by
  cases l <;> simp [canonList, Canon.isTuple]

mutual
theorem canon_eq_iff : ∀ x y : Py, x.canon = y.canon ↔ PyEq x y
  | x, y => by
    constructor
    · intro h
      have ht := congrArg Canon.isTuple h
      cases x <;> cases y <;> simp only [Py.canon, canonList_isTuple] at ht <;>
        (try simp only [Canon.isTuple, reduceCtorEq] at ht) <;>
        try simp only [Py.canon, Canon.num.injEq, Canon.str.injEq,
          Canon.type.injEq, Canon.obj.injEq, reduceCtorEq] at h
      all_goals first
        | exact .number _ rfl (by simp [Py.number?, h])
        | (subst h; exact .str _)
        | exact .none
        | (subst h; exact .type _)
        | (obtain ⟨rfl, rfl⟩ := h; exact .obj _ _)
        | exact .tuple ((canonList_eq_iff _ _).1 h)
    · intro h
      cases h with
      | number r hx hy =>
        cases x <;> simp only [Py.number?, Option.some.injEq, reduceCtorEq] at hx <;>
        cases y <;> simp only [Py.number?, Option.some.injEq, reduceCtorEq] at hy <;>
        simp only [Py.canon, hx, hy]
      | str => rfl
      | none => rfl
      | tuple h => simp only [Py.canon]; exact (canonList_eq_iff _ _).2 h
      | type => rfl
      | obj => rfl
theorem canonList_eq_iff : ∀ l l' : List Py, canonList l = canonList l' ↔ List.Forall₂ PyEq l l'
  | [], [] => by simp [canonList]
  | [], _ :: _ => by simp [canonList]
  | _ :: _, [] => by simp [canonList]
  | x :: l, y :: l' => by
    simp only [canonList, Canon.pair.injEq, List.forall₂_cons]
    exact and_congr (canon_eq_iff x y) (canonList_eq_iff l l')
end

theorem lookup_some_iff {l : List (String × Py)} (h : (l.map Prod.fst).Nodup) (n : String) (v : Py) :
    l.lookup n = some v ↔ (n, v) ∈ l := by
  induction l with
  | nil => simp
  | cons kv l ih =>
    obtain ⟨k, w⟩ := kv
    simp only [List.map_cons, List.nodup_cons, List.mem_map, not_exists, not_and] at h
    rw [List.lookup_cons]
    by_cases hk : n = k
    · subst hk
      simp only [beq_self_eq_true, Option.some.injEq, List.mem_cons, Prod.mk.injEq, true_and]
      constructor
      · intro e; exact .inl e.symm
      · rintro (e | e)
        · exact e.symm
        · exact absurd rfl (h.1 _ e)
    · simp only [beq_eq_false_iff_ne.2 hk, List.mem_cons, Prod.mk.injEq, hk, false_and,
        false_or]
      exact ih h.2

theorem sortedItems_perm (kwds : List (String × Py)) : (sortedItems kwds).Perm kwds :=
  List.mergeSort_perm _ _

theorem sortedItems_sorted (kwds : List (String × Py)) :
    ((sortedItems kwds).map Prod.fst).Pairwise (· ≤ ·) := by
  rw [List.pairwise_map]
  have := List.pairwise_mergeSort (le := fun a b : String × Py => decide (a.1 ≤ b.1))
    (by intro a b c h1 h2; simp only [decide_eq_true_eq] at *; exact le_trans h1 h2)
    (by intro a b; simp only [Bool.or_eq_true, decide_eq_true_eq]; exact le_total _ _) kwds
  exact this.imp fun h => by simpa using h

theorem sortedItems_nodup {a : Args} (h : a.Proper) : ((sortedItems a.kwds).map Prod.fst).Nodup :=
  ((sortedItems_perm a.kwds).map Prod.fst).nodup_iff.2 h

theorem keyword_sorted {a : Args} (h : a.Proper) (n : String) :
    a.keyword n = (sortedItems a.kwds).lookup n := by
  apply Option.ext
  intro v
  unfold Args.keyword
  rw [lookup_some_iff h, lookup_some_iff (sortedItems_nodup h)]
  exact (sortedItems_perm a.kwds).mem_iff.symm

theorem lookup_forall₂ {R : Py → Py → Prop} {l l' : List (String × Py)}
    (h : List.Forall₂ (fun x y => x.1 = y.1 ∧ R x.2 y.2) l l') (n : String) :
    Option.Rel R (l.lookup n) (l'.lookup n) := by
  induction h with
  | nil => exact .none
  | @cons x y l l' hxy _ ih =>
    obtain ⟨k, v⟩ := x
    obtain ⟨k', v'⟩ := y
    obtain ⟨rfl, hv⟩ := hxy
    rw [List.lookup_cons, List.lookup_cons]
    by_cases hk : n == k
    · simp only [hk]; exact .some hv
    · simp only [hk]; exact ih

theorem items_of_keywords {R : Py → Py → Prop} {a b : Args} (ha : a.Proper) (hb : b.Proper)
    (h : ∀ name, Option.Rel R (a.keyword name) (b.keyword name)) :
    List.Forall₂ (fun x y => x.1 = y.1 ∧ R x.2 y.2) (sortedItems a.kwds) (sortedItems b.kwds) := by
  have hmem : ∀ n, n ∈ (sortedItems a.kwds).map Prod.fst ↔ n ∈ (sortedItems b.kwds).map Prod.fst := by
    intro n
    have key : ∀ c : Args, c.Proper →
        (n ∈ (sortedItems c.kwds).map Prod.fst ↔ (c.keyword n).isSome = true) := by
      intro c hc
      rw [keyword_sorted hc, Option.isSome_iff_exists]
      simp only [lookup_some_iff (sortedItems_nodup hc), List.mem_map]
      constructor
      · rintro ⟨⟨k, v⟩, hm, rfl⟩; exact ⟨v, hm⟩
      · rintro ⟨v, hm⟩; exact ⟨_, hm, rfl⟩
    rw [key a ha, key b hb]
    have := h n
    generalize a.keyword n = u at this
    generalize b.keyword n = w at this
    cases this <;> simp
  have hnames : (sortedItems a.kwds).map Prod.fst = (sortedItems b.kwds).map Prod.fst := by
    apply List.Perm.eq_of_pairwise' (r := (· ≤ ·)) (sortedItems_sorted _) (sortedItems_sorted _)
    exact (List.perm_ext_iff_of_nodup (sortedItems_nodup ha) (sortedItems_nodup hb)).2 hmem
  rw [List.forall₂_iff_get]
  have hlen : (sortedItems a.kwds).length = (sortedItems b.kwds).length := by
    simpa using congrArg List.length hnames
  refine ⟨hlen, ?_⟩
  intro i h1 h2
  have hn : ((sortedItems a.kwds)[i]).1 = ((sortedItems b.kwds)[i]).1 := by
    have := congrArg (fun l => l[i]?) hnames
    simpa [h1, h2] using this
  refine ⟨hn, ?_⟩
  have e1 : a.keyword ((sortedItems a.kwds)[i]).1 = some ((sortedItems a.kwds)[i]).2 := by
    rw [keyword_sorted ha, lookup_some_iff (sortedItems_nodup ha)]
    exact List.getElem_mem h1
  have e2 : b.keyword ((sortedItems a.kwds)[i]).1 = some ((sortedItems b.kwds)[i]).2 := by
    rw [hn, keyword_sorted hb, lookup_some_iff (sortedItems_nodup hb)]
    exact List.getElem_mem h2
  have := h ((sortedItems a.kwds)[i]).1
  rw [e1, e2] at this
  cases this with
  | some h => exact h

theorem sortedItems_isEmpty (a : Args) : a.kwds.isEmpty = (sortedItems a.kwds).isEmpty := by
  have := (sortedItems_perm a.kwds).length_eq
  cases h1 : a.kwds <;> cases h2 : sortedItems a.kwds <;> simp_all

/-- Splitting at the mark. -/
theorem split_mark {u u' p p' : List Elem} (hu : .mark ∉ u) (hu' : .mark ∉ u')
    (h : u ++ .mark :: p = u' ++ .mark :: p') : u = u' ∧ p = p' := by
  induction u generalizing u' with
  | nil =>
    cases u' with
    | nil => simpa using h
    | cons x u' =>
      simp only [List.nil_append, List.cons_append, List.cons.injEq] at h
      exact absurd (by rw [← h.1]; simp) hu'
  | cons x u ih =>
    cases u' with
    | nil =>
      simp only [List.nil_append, List.cons_append, List.cons.injEq] at h
      exact absurd (by rw [h.1]; simp) hu
    | cons y u' =>
      simp only [List.cons_append, List.cons.injEq] at h
      obtain ⟨e1, e2⟩ := ih (fun hm => hu (by simp [hm])) (fun hm => hu' (by simp [hm])) h.2
      exact ⟨by rw [h.1, e1], e2⟩

theorem vals_noMark (l : List Py) : Elem.mark ∉ l.map (fun v => Elem.val v.canon) := by simp

theorem vals_eq {l l' : List Py}
    (h : l.map (fun v => Elem.val v.canon) = l'.map (fun v => Elem.val v.canon)) :
    List.Forall₂ PyEq l l' := by
  induction l generalizing l' with
  | nil => cases l' <;> simp_all
  | cons x l ih =>
    cases l' with
    | nil => simp at h
    | cons y l' =>
      simp only [List.map_cons, List.cons.injEq, Elem.val.injEq] at h
      exact .cons ((canon_eq_iff x y).1 h.1) (ih h.2)

theorem types_eq {l l' : List Py}
    (h : l.map (fun v => Elem.val (.type v.ty)) = l'.map (fun v => Elem.val (.type v.ty))) :
    List.Forall₂ (fun x y => x.ty = y.ty) l l' := by
  induction l generalizing l' with
  | nil => cases l' <;> simp_all
  | cons x l ih =>
    cases l' with
    | nil => simp at h
    | cons y l' =>
      simp only [List.map_cons, List.cons.injEq, Elem.val.injEq, Canon.type.injEq] at h
      exact .cons h.1 (ih h.2)

/-- The flattened keyword arguments. -/
def flat (items : List (String × Py)) : List Elem :=
  items.flatMap fun kv => [.val (.str kv.1), .val kv.2.canon]

theorem flat_length (items : List (String × Py)) : (flat items).length = 2 * items.length := by
  induction items with
  | nil => rfl
  | cons x l ih => simp only [flat, List.flatMap_cons, List.length_append, List.length_cons] at *; simp; omega

theorem flat_eq {l l' : List (String × Py)} (h : flat l = flat l') :
    List.Forall₂ (fun x y => x.1 = y.1 ∧ PyEq x.2 y.2) l l' := by
  induction l generalizing l' with
  | nil => cases l' <;> simp_all [flat]
  | cons x l ih =>
    cases l' with
    | nil => simp [flat] at h
    | cons y l' =>
      simp only [flat, List.flatMap_cons, List.cons_append, List.nil_append, List.cons.injEq,
        Elem.val.injEq, Canon.str.injEq] at h
      exact .cons ⟨h.1, (canon_eq_iff _ _).1 h.2.1⟩ (ih h.2.2)

theorem ktypes_eq {l l' : List (String × Py)}
    (h : l.map (fun kv => Elem.val (.type kv.2.ty)) = l'.map (fun kv => Elem.val (.type kv.2.ty)))
    (hn : List.Forall₂ (fun x y : String × Py => x.1 = y.1 ∧ PyEq x.2 y.2) l l') :
    List.Forall₂ (fun x y : String × Py => x.1 = y.1 ∧ x.2.ty = y.2.ty) l l' := by
  induction hn with
  | nil => exact .nil
  | cons hxy _ ih =>
    simp only [List.map_cons, List.cons.injEq, Elem.val.injEq, Canon.type.injEq] at h
    exact .cons ⟨hxy.1, h.1⟩ (ih h.2)

theorem keywords_nil {R : Py → Py → Prop} {a b : Args} (ha : a.kwds = []) (hb : b.kwds = []) :
    ∀ name, Option.Rel R (a.keyword name) (b.keyword name) := by
  intro n
  simp only [Args.keyword, ha, hb, List.lookup_nil]
  exact .none

theorem keywords_items {R : Py → Py → Prop} {a b : Args} (ha : a.Proper) (hb : b.Proper)
    (h : List.Forall₂ (fun x y => x.1 = y.1 ∧ R x.2 y.2) (sortedItems a.kwds) (sortedItems b.kwds)) :
    ∀ name, Option.Rel R (a.keyword name) (b.keyword name) := by
  intro n
  rw [keyword_sorted ha, keyword_sorted hb]
  exact lookup_forall₂ h n

/-- The tuple `key` before types are added. -/
def plainKey (a : Args) : List Elem :=
  a.args.map (fun v => Elem.val v.canon) ++
    (if a.kwds.isEmpty then [] else .mark :: flat (sortedItems a.kwds))

theorem plainKey_eq {a b : Args} (ha : a.Proper) (hb : b.Proper) (h : plainKey a = plainKey b) :
    Agree PyEq a b := by
  unfold plainKey at h
  cases hka : a.kwds with
  | nil =>
    cases hkb : b.kwds with
    | nil =>
      simp only [hka, hkb, List.isEmpty_nil, if_true, List.append_nil] at h
      exact ⟨vals_eq h, keywords_nil hka hkb⟩
    | cons y l' =>
      simp only [hka, hkb, List.isEmpty_nil, List.isEmpty_cons, if_true, Bool.false_eq_true, if_false,
        List.append_nil] at h
      exact absurd (by rw [h]; simp) (vals_noMark a.args)
  | cons x l =>
    cases hkb : b.kwds with
    | nil =>
      simp only [hka, hkb, List.isEmpty_nil, List.isEmpty_cons, if_true, Bool.false_eq_true, if_false,
        List.append_nil] at h
      exact absurd (by rw [← h]; simp) (vals_noMark b.args)
    | cons y l' =>
      simp only [hka, hkb, List.isEmpty_cons, Bool.false_eq_true, if_false] at h
      obtain ⟨h1, h2⟩ := split_mark (vals_noMark _) (vals_noMark _) h
      rw [← hka, ← hkb] at h2
      exact ⟨vals_eq h1, keywords_items ha hb (flat_eq h2)⟩

theorem makeKey_untyped (a : Args) : makeKey false a = .seq (plainKey a) ∨
    ∃ v, a = ⟨[v], []⟩ ∧ makeKey false a = .bare v.canon := by
  obtain ⟨args, kwds⟩ := a
  match args, kwds with
  | [v], [] =>
    by_cases hf : v.ty.fast = true
    · right; exact ⟨v, rfl, by simp [makeKey, hf]⟩
    · left; simp [makeKey, hf, plainKey]
  | [], _ => left; rfl
  | _ :: _ :: _, _ => left; rfl
  | [v], x :: l => left; rfl

/-! ## C107 -/

/-- C107. Two calls share a cached result only if their positional arguments are pairwise equal and
their keyword arguments, whatever their order, are equal name by name; for `typed=True` corresponding
arguments also have the same types. -/
theorem C107_shared_only (typed : Bool) (a b : Args) (ha : a.Proper) (hb : b.Proper)
    (h : makeKey typed a = makeKey typed b) :
    Agree PyEq a b ∧ (typed = true → Agree (fun x y => x.ty = y.ty) a b) := by
  cases typed with
  | false =>
    refine ⟨?_, by simp⟩
    rcases makeKey_untyped a with h1 | ⟨v, rfl, h1⟩ <;> rcases makeKey_untyped b with h2 | ⟨w, rfl, h2⟩ <;>
      rw [h1, h2] at h
    · exact plainKey_eq ha hb (Key.seq.inj h)
    · cases h
    · cases h
    · exact ⟨.cons ((canon_eq_iff v w).1 (Key.bare.inj h)) .nil, keywords_nil rfl rfl⟩
  | true =>
    have h := Key.seq.inj h
    cases hka : a.kwds with
    | nil =>
      cases hkb : b.kwds with
      | nil =>
        simp only [hka, hkb, List.isEmpty_nil, if_true, List.append_nil] at h
        have hlen := congrArg List.length h
        simp only [List.length_append, List.length_map] at hlen
        obtain ⟨h1, h2⟩ := List.append_inj h (by simp; omega)
        exact ⟨⟨vals_eq h1, keywords_nil hka hkb⟩, fun _ => ⟨types_eq h2, keywords_nil hka hkb⟩⟩
      | cons y l' =>
        simp only [hka, hkb, List.isEmpty_nil, List.isEmpty_cons, if_true, Bool.false_eq_true, if_false,
          List.append_nil] at h
        have : Elem.mark ∈ a.args.map (fun v => Elem.val v.canon) ++
            a.args.map (fun v => Elem.val (.type v.ty)) := by rw [h]; simp
        simp at this
    | cons x l =>
      cases hkb : b.kwds with
      | nil =>
        simp only [hka, hkb, List.isEmpty_nil, List.isEmpty_cons, if_true, Bool.false_eq_true, if_false,
          List.append_nil] at h
        have : Elem.mark ∈ b.args.map (fun v => Elem.val v.canon) ++
            b.args.map (fun v => Elem.val (.type v.ty)) := by rw [← h]; simp
        simp at this
      | cons y l' =>
        simp only [hka, hkb, List.isEmpty_cons, Bool.false_eq_true, if_false] at h
        rw [← hka, ← hkb] at h
        change (_ ++ .mark :: flat (sortedItems a.kwds)) ++ _ ++ _ =
          (_ ++ .mark :: flat (sortedItems b.kwds)) ++ _ ++ _ at h
        simp only [List.append_assoc, List.cons_append] at h
        obtain ⟨h1, h2⟩ := split_mark (vals_noMark _) (vals_noMark _) h
        have hargs := vals_eq h1
        have hn := hargs.length_eq
        have hlen := congrArg List.length h2
        simp only [List.length_append, List.length_map, flat_length] at hlen
        obtain ⟨h3, h4⟩ := List.append_inj h2 (by simp only [flat_length]; omega)
        obtain ⟨h5, h6⟩ := List.append_inj h4 (by simp [hn])
        exact ⟨⟨hargs, keywords_items ha hb (flat_eq h3)⟩,
          fun _ => ⟨types_eq h5, keywords_items ha hb (ktypes_eq h6 (flat_eq h3))⟩⟩

/-- C107. A call repeated with equal arguments of the same types is found, also with its keyword
arguments in another order. -/
theorem C107_found (typed : Bool) (a b : Args) (ha : a.Proper) (hb : b.Proper)
    (h : Agree (fun x y => PyEq x y ∧ x.ty = y.ty) a b) : makeKey typed a = makeKey typed b := by
  have hitems := items_of_keywords ha hb h.keywords
  have hempty : a.kwds.isEmpty = b.kwds.isEmpty := by
    rw [sortedItems_isEmpty, sortedItems_isEmpty b]
    generalize sortedItems a.kwds = l at hitems
    generalize sortedItems b.kwds = l' at hitems
    cases hitems <;> rfl
  have hvals : a.args.map (fun v => Elem.val v.canon) = b.args.map (fun v => Elem.val v.canon) := by
    have := h.positional
    generalize a.args = l at this
    generalize b.args = l' at this
    induction this with
    | nil => rfl
    | cons hxy _ ih => simp only [List.map_cons]; rw [(canon_eq_iff _ _).2 hxy.1, ih]
  have htypes : a.args.map (fun v => Elem.val (.type v.ty)) =
      b.args.map (fun v => Elem.val (.type v.ty)) := by
    have := h.positional
    generalize a.args = l at this
    generalize b.args = l' at this
    induction this with
    | nil => rfl
    | cons hxy _ ih => simp only [List.map_cons]; rw [hxy.2, ih]
  have hflat : flat (sortedItems a.kwds) = flat (sortedItems b.kwds) := by
    generalize sortedItems a.kwds = l at hitems
    generalize sortedItems b.kwds = l' at hitems
    induction hitems with
    | nil => rfl
    | cons hxy _ ih =>
      simp only [flat, List.flatMap_cons] at ih ⊢
      rw [hxy.1, (canon_eq_iff _ _).2 hxy.2.1, ih]
  have hkt : (sortedItems a.kwds).map (fun kv => Elem.val (.type kv.2.ty)) =
      (sortedItems b.kwds).map (fun kv => Elem.val (.type kv.2.ty)) := by
    generalize sortedItems a.kwds = l at hitems
    generalize sortedItems b.kwds = l' at hitems
    induction hitems with
    | nil => rfl
    | cons hxy _ ih => simp only [List.map_cons]; rw [hxy.2.2, ih]
  have hplain : plainKey a = plainKey b := by
    unfold plainKey; rw [hvals, hempty, hflat]
  cases typed with
  | true =>
    show Key.seq (plainKey a ++ _ ++ _) = Key.seq (plainKey b ++ _ ++ _)
    rw [hplain, htypes, hempty, hkt]
  | false =>
    obtain ⟨args, kwds⟩ := a
    obtain ⟨args', kwds'⟩ := b
    simp only at *
    match args, args', kwds, kwds', h.positional, hempty with
    | [v], [w], [], [], .cons hvw _, _ =>
      simp only [makeKey, Bool.false_eq_true, if_false]
      rw [hvw.2]
      have := hvals
      simp only [List.map_cons, List.map_nil, List.cons.injEq, Elem.val.injEq, and_true] at this
      simp [this]
    | [], [], _, _, _, _ => exact congrArg Key.seq hplain
    | [v], [w], _ :: _, _ :: _, _, _ => exact congrArg Key.seq hplain
    | _ :: _ :: _, _ :: _ :: _, _, _, _, _ => exact congrArg Key.seq hplain

/-- C107. With these keys a cache never changes a result: for every cache mode, every function of
positional and keyword arguments which gives the same result for equal arguments (for `typed=True`: for
equal arguments of the same types) and every history of calls and clears. -/
theorem C107_transparent {V E : Type} (typed : Bool) (m : Mode) (f : {a : Args // a.Proper} → V)
    (hf : ∀ a b, Agree PyEq a.1 b.1 → (typed = true → Agree (fun x y => x.ty = y.ty) a.1 b.1) →
      f a = f b)
    (ops : List (Op {a : Args // a.Proper} V E))
    (hops : ∀ a o n, Op.call a o n ∈ ops → o = .ok (f a) ∨ ∃ e, o = .error e) :
    List.Forall₂ (fun op x => Transparent f op x.1) ops
      (run m (fun a => makeKey typed a.1) (State.init : State Key V) ops).2 :=
  C01_cache_transparent m _ f (fun a b h =>
    let r := C107_shared_only typed a.1 b.1 a.2 b.2 h
    hf a b r.1 r.2) ops hops

/-- Keyword arguments in another order: the second call is found. -/
example : makeKey true ⟨[.int 1], [("x", .int 2), ("y", .none)]⟩ =
    makeKey true ⟨[.int 1], [("y", .none), ("x", .int 2)]⟩ := by
  apply C107_found
  · simp [Args.Proper]
  · simp [Args.Proper]
  · refine ⟨.cons ⟨.number 1 rfl rfl, rfl⟩ .nil, ?_⟩
    intro n
    simp only [Args.keyword, List.lookup_cons, List.lookup_nil]
    by_cases hx : n = "x"
    · subst hx; exact .some ⟨.number 2 rfl rfl, rfl⟩
    · by_cases hy : n = "y"
      · subst hy; exact .some ⟨.none, rfl⟩
      · rw [beq_eq_false_iff_ne.2 hx, beq_eq_false_iff_ne.2 hy]; exact .none

/-- A float and a bool of equal value share a result unless types are distinguished; a float and an
integer do so except as only argument; a positional argument and a keyword argument never do. -/
example :
    makeKey false ⟨[.float 1], []⟩ = makeKey false ⟨[.bool true], []⟩ ∧
    makeKey true ⟨[.float 1], []⟩ ≠ makeKey true ⟨[.bool true], []⟩ ∧
    makeKey false ⟨[.float 1], []⟩ ≠ makeKey false ⟨[.int 1], []⟩ ∧
    makeKey false ⟨[.float 1, .none], []⟩ = makeKey false ⟨[.int 1, .none], []⟩ ∧
    makeKey false ⟨[.int 1, .int 2], []⟩ ≠ makeKey false ⟨[.int 1], [("x", .int 2)]⟩ := by
  refine ⟨rfl, ?_, ?_, rfl, ?_⟩
  · intro h
    cases ((C107_shared_only true _ _ (by simp [Args.Proper]) (by simp [Args.Proper]) h).2 rfl).positional with
    | cons h _ => cases h
  · intro h; cases h
  · intro h
    have := (C107_shared_only false _ _ (by simp [Args.Proper]) (by simp [Args.Proper]) h).1.positional.length_eq
    simp at this

end Verif.Cache
