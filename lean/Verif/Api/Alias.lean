import Verif.Api.Props

/-!
# Arrays shared between objects, cache and user (C104)

Which arrays are the same array in memory: constructors and getters of objects made from arrays
(`cosmic_profiles/dens_profs/dens_profs_classes.pyx:51-95`, `cosmic_profiles/shape_profs/shape_profs_classes.pyx:466-515`)
and from files (`cosmic_profiles/shape_profs/shape_profs_classes.pyx:563-592, 730-830`), and the cache around `calcObjCat`
(`cosmic_profiles/gadget/gen_catalogues.pyx:92-95`), which returns the very arrays it keeps.
-/

namespace Verif.Api

open Verif.Units Verif.Catalogue Verif.Periodic Verif.Binning Verif.Par

/-! ## Model -/

/-- Contents of a numpy array. -/
inductive Arr
  | vecs (l : List (Vec ℝ)) | reals (l : List ℝ) | ints (l : List Nat)

/-- Attributes of an object: addresses of arrays; `files` are the files it was made from, if any. -/
structure ORefs where
  xyz : Nat
  masses : Nat
  idxCat : Nat
  r200 : Nat
  sizes : Nat
  box : ℝ
  center : Center
  files : Option Nat

/-- Memory (address = position), the objects made so far, and the cached results of `calcObjCat` for
each set of files: addresses of catalogue, radii and sizes (shape_profs_classes.pyx:583).
Simplification: cached results are looked up by set of files, not by the tables in them. -/
structure World where
  heap : List Arr
  objs : List ORefs
  cache : Nat → Option (Nat × Nat × Nat)

/-- What happens in a session.  `evict`: the cache drops a result.  `write`: the user changes the
contents of an array in place. -/
inductive AOp
  | make (c : Cfg ℝ) (i : Input)
  | makeFromFiles (k : Nat)
  | getXYZMasses (c : Cfg ℝ) (n : Nat)
  | getR200 (c : Cfg ℝ) (n : Nat)
  | getIdxCat (n : Nat)
  | evict (k : Nat)
  | write (r : Nat) (a : Arr)

/-- The object as seen by its methods. -/
def readObj (heap : List Arr) (o : ORefs) : Option Obj :=
  match heap[o.xyz]?, heap[o.masses]?, heap[o.idxCat]?, heap[o.r200]?, heap[o.sizes]? with
  | some (.vecs x), some (.reals m), some (.ints i), some (.reals r), some (.ints s) =>
    some ⟨x, m, i, r, s, o.box, o.center⟩
  | _, _, _, _, _ => none

/-- `calcObjCat` on a set of files: the cached arrays, or new ones which are then cached. -/
def catalogueOf (files : Nat → Obj) (w : World) (k : Nat) : World × (Nat × Nat × Nat) :=
  match w.cache k with
  | some t => (w, t)
  | none =>
    let n := w.heap.length
    ({ w with heap := w.heap ++ [.ints (files k).idxCat, .reals (files k).r200, .ints (files k).sizes]
              cache := fun j => if j = k then some (n, n + 1, n + 2) else w.cache j }, (n, n + 1, n + 2))

/-- `getIdxCat` of object number `n`: of an object made from arrays (dens_profs_classes.pyx:77-78), or
from files (shape_profs_classes.pyx:816-827). -/
def idxCatOf (files : Nat → Obj) (w : World) (n : Nat) (o : ORefs) : Option Nat → World × Except Err (List Nat)
  | none => (w, .ok [o.idxCat, o.sizes])
  | some k =>
    let (w1, cat, r200, sizes) := catalogueOf files w k
    ({ w1 with objs := w1.objs.set n { o with r200 := r200 } }, .ok [cat, sizes])

/-- One step: new state, and addresses of the arrays which the user gets or owns already (the arrays
handed to a constructor; simplification: each call has its own).  `files k` are the data in the set of
files `k`, in internal units (C100). -/
noncomputable def astep (files : Nat → Obj) (w : World) : AOp → World × Except Err (List Nat)
  | .make c i => match construct c i with
    | .error e => (w, .error e)
    | .ok o =>
      let n := w.heap.length
      ({ w with heap := w.heap ++ [.vecs i.xyz, .reals i.masses, .vecs o.xyz, .reals o.masses,
                  .ints o.idxCat, .reals o.r200, .ints o.sizes]
                objs := w.objs ++ [⟨n + 2, n + 3, n + 4, n + 5, n + 6, o.box, o.center, none⟩] }, .ok [n, n + 1])
  | .makeFromFiles k =>
    let (w1, cat, r200, sizes) := catalogueOf files w k
    let n := w1.heap.length
    ({ w1 with heap := w1.heap ++ [.vecs (files k).xyz, .reals (files k).masses]
               objs := w1.objs ++ [⟨n, n + 1, cat, r200, sizes, (files k).box, (files k).center, some k⟩] }, .ok [])
  | .getXYZMasses c n => match w.objs[n]?.bind (readObj w.heap) with
    | none => (w, .error .index)
    | some o => match getXYZMasses c o with
      | .error e => (w, .error e)
      | .ok (x, m) => ({ w with heap := w.heap ++ [.vecs x, .reals m] }, .ok [w.heap.length, w.heap.length + 1])
  | .getR200 c n => match w.objs[n]?.bind (readObj w.heap) with
    | none => (w, .error .index)
    | some o => match getR200 c o with
      | .error e => (w, .error e)
      | .ok r => ({ w with heap := w.heap ++ [.reals r] }, .ok [w.heap.length])
  | .getIdxCat n => match w.objs[n]? with
    | none => (w, .error .index)
    | some o => idxCatOf files w n o o.files
  | .evict k => ({ w with cache := fun j => if j = k then none else w.cache j }, .ok [])
  | .write r a => ({ w with heap := w.heap.set r a }, .ok [])

/-- What the user sees at a step: the contents of the arrays returned. -/
def contents (heap : List Arr) (refs : Except Err (List Nat)) : Except Err (List (Option Arr)) :=
  refs.map fun l => l.map fun r => heap[r]?

/-- A session: what is seen at each step, and the final state. -/
noncomputable def session (files : Nat → Obj) : World → List AOp → World × List (Except Err (List (Option Arr)))
  | w, [] => (w, [])
  | w, op :: ops =>
    let r := astep files w op
    let rest := session files r.1 ops
    (rest.1, contents r.1.heap r.2 :: rest.2)

/-- The start of a program: no arrays, no objects, nothing cached. -/
def World.empty : World := ⟨[], [], fun _ => none⟩

/-! ## Specification: objects are values -/

/-- What the user should see: objects do not change once made. -/
noncomputable def seen (files : Nat → Obj) (objs : List Obj) : AOp → List Obj × Except Err (List (Option Arr))
  | .make c i => match construct c i with
    | .error e => (objs, .error e)
    | .ok o => (objs ++ [o], .ok [some (.vecs i.xyz), some (.reals i.masses)])
  | .makeFromFiles k => (objs ++ [files k], .ok [])
  | .getXYZMasses c n => (objs, match objs[n]? with
    | none => .error .index
    | some o => (getXYZMasses c o).map fun xm => [some (.vecs xm.1), some (.reals xm.2)])
  | .getR200 c n => (objs, match objs[n]? with
    | none => .error .index
    | some o => (getR200 c o).map fun r => [some (.reals r)])
  | .getIdxCat n => (objs, match objs[n]? with
    | none => .error .index
    | some o => .ok [some (.ints (getIdxCat o).1), some (.ints (getIdxCat o).2)])
  | .evict _ => (objs, .ok [])
  | .write _ _ => (objs, .ok [])

/-- What the user should see in the course of a session. -/
noncomputable def seenAll (files : Nat → Obj) : List Obj → List AOp → List Obj × List (Except Err (List (Option Arr)))
  | objs, [] => (objs, [])
  | objs, op :: ops =>
    let r := seen files objs op
    let rest := seenAll files r.1 ops
    (rest.1, r.2 :: rest.2)

/-- Addresses the user gets from all calls but `getIdxCat`. -/
def newlyOwned (op : AOp) (refs : Except Err (List Nat)) : List Nat :=
  match op, refs with
  | .getIdxCat _, _ => []
  | _, .ok l => l
  | _, .error _ => []

/-- The user changes only arrays they handed in or got from `getXYZMasses` or `getR200`. -/
def Careful (files : Nat → Obj) : World → List Nat → List AOp → Prop
  | _, _, [] => True
  | w, owned, op :: ops =>
    (∀ r a, op = .write r a → r ∈ owned) ∧
      Careful files (astep files w op).1 (owned ++ newlyOwned op (astep files w op).2) ops

/-! ## Proofs -/

/-- Reading only depends on the five arrays. -/
theorem readObj_congr {h h' : List Arr} {o : ORefs}
    (hh : ∀ r ∈ [o.xyz, o.masses, o.idxCat, o.r200, o.sizes], h'[r]? = h[r]?) : readObj h' o = readObj h o := by
  unfold readObj
  rw [hh o.xyz (by simp), hh o.masses (by simp), hh o.idxCat (by simp), hh o.r200 (by simp), hh o.sizes (by simp)]

/-- State of the world, the user's arrays and the objects as values. -/
structure AInv (files : Nat → Obj) (w : World) (owned : List Nat) (objs : List Obj) : Prop where
  reads : w.objs.map (readObj w.heap) = objs.map some
  ownedLt : ∀ r ∈ owned, r < w.heap.length
  private_ : ∀ o ∈ w.objs, ∀ r ∈ [o.xyz, o.masses, o.idxCat, o.r200, o.sizes], r < w.heap.length ∧ r ∉ owned
  cached : ∀ k t, w.cache k = some t → w.heap[t.1]? = some (.ints (files k).idxCat) ∧
    w.heap[t.2.1]? = some (.reals (files k).r200) ∧ w.heap[t.2.2]? = some (.ints (files k).sizes) ∧
    t.1 ∉ owned ∧ t.2.1 ∉ owned ∧ t.2.2 ∉ owned
  fromFiles : ∀ (n : Nat) (o : ORefs) (k : Nat), w.objs[n]? = some o → o.files = some k → objs[n]? = some (files k)

variable {files : Nat → Obj} {w : World} {owned : List Nat} {objs : List Obj}

theorem getElem?_append_old {h : List Arr} {r : Nat} (hr : r < h.length) (new : List Arr) :
    (h ++ new)[r]? = h[r]? := List.getElem?_append_left hr

theorem lt_of_some {h : List Arr} {r : Nat} {a : Arr} (hr : h[r]? = some a) : r < h.length :=
  (List.getElem?_eq_some_iff.1 hr).1

/-- New arrays do not matter; the user may own some of them. -/
theorem AInv.grow (hi : AInv files w owned objs) (new : List Arr) (own' : List Nat)
    (ho : ∀ r ∈ own', w.heap.length ≤ r ∧ r < w.heap.length + new.length) :
    AInv files { w with heap := w.heap ++ new } (owned ++ own') objs where
  reads := by
    rw [← hi.reads]
    apply List.map_congr_left
    intro o ho'
    exact readObj_congr fun r hr => getElem?_append_old (hi.private_ o ho' r hr).1 _
  ownedLt := by
    intro r hr
    rw [List.length_append]
    rcases List.mem_append.1 hr with hr | hr
    · have := hi.ownedLt r hr; omega
    · exact (ho r hr).2
  private_ := by
    intro o ho' r hr
    have := hi.private_ o ho' r hr
    rw [List.length_append]
    refine ⟨by omega, fun hm => ?_⟩
    rcases List.mem_append.1 hm with hm | hm
    · exact this.2 hm
    · have := (ho r hm).1; omega
  cached := by
    intro k t ht
    obtain ⟨h1, h2, h3, h4, h5, h6⟩ := hi.cached k t ht
    have key : ∀ r, r < w.heap.length → r ∉ owned → r ∉ owned ++ own' := by
      intro r hr hn hm
      rcases List.mem_append.1 hm with hm | hm
      · exact hn hm
      · have := (ho r hm).1; omega
    have l1 := lt_of_some h1
    have l2 := lt_of_some h2
    have l3 := lt_of_some h3
    exact ⟨(getElem?_append_old l1 _).trans h1, (getElem?_append_old l2 _).trans h2,
      (getElem?_append_old l3 _).trans h3, key _ l1 h4, key _ l2 h5, key _ l3 h6⟩
  fromFiles := hi.fromFiles

theorem AInv.catalogueOf (hi : AInv files w owned objs) (k : Nat) :
    AInv files (catalogueOf files w k).1 owned objs ∧
      (catalogueOf files w k).1.cache k = some (catalogueOf files w k).2 ∧
      (catalogueOf files w k).1.objs = w.objs := by
  unfold Api.catalogueOf
  cases h : w.cache k with
  | some t => exact ⟨hi, h, rfl⟩
  | none =>
    have hg := hi.grow [.ints (files k).idxCat, .reals (files k).r200, .ints (files k).sizes] [] (by simp)
    rw [List.append_nil] at hg
    refine ⟨⟨hg.reads, hg.ownedLt, hg.private_, ?_, hg.fromFiles⟩, by simp, rfl⟩
    intro j t ht
    by_cases hj : j = k
    · subst hj
      simp only [if_true] at ht
      cases ht
      have hn : ∀ r, w.heap.length ≤ r → r ∉ owned := fun r hr hm => by
        have := hi.ownedLt r hm; omega
      exact ⟨by simp, by simp, by simp, hn _ le_rfl, hn (_ + 1) (by omega), hn (_ + 2) (by omega)⟩
    · simp only [if_neg hj] at ht
      exact hg.cached j t ht

theorem objAt (hi : AInv files w owned objs) (n : Nat) :
    w.objs[n]?.bind (readObj w.heap) = objs[n]? := by
  have h := congrArg (fun l => l[n]?) hi.reads
  simp only [List.getElem?_map] at h
  cases h1 : w.objs[n]? <;> cases h2 : objs[n]? <;> rw [h1, h2] at h <;> simp at h ⊢
  exact h

theorem step_inv (hi : AInv files w owned objs) (op : AOp) (hc : ∀ r a, op = .write r a → r ∈ owned) :
    AInv files (astep files w op).1 (owned ++ newlyOwned op (astep files w op).2) (seen files objs op).1 ∧
      contents (astep files w op).1.heap (astep files w op).2 = (seen files objs op).2 := by
  cases op with
  | make c i =>
    simp only [astep, seen]
    cases hcons : construct c i with
    | error e => exact ⟨by simpa [newlyOwned] using hi, rfl⟩
    | ok o =>
      have hg := hi.grow [.vecs i.xyz, .reals i.masses, .vecs o.xyz, .reals o.masses,
                  .ints o.idxCat, .reals o.r200, .ints o.sizes] [w.heap.length, w.heap.length + 1] (by simp)
      refine ⟨⟨?_, hg.ownedLt, ?_, hg.cached, ?_⟩, by simp [contents, Except.map]⟩
      · simp only [List.map_append, List.map_cons, List.map_nil]
        rw [hg.reads]
        simp [readObj]
      · intro o' ho' r hr
        rcases List.mem_append.1 ho' with ho' | ho'
        · exact hg.private_ o' ho' r hr
        · rw [List.mem_singleton] at ho'
          subst ho'
          have hb : w.heap.length + 2 ≤ r ∧ r < w.heap.length + 7 := by
            simp only [List.mem_cons, List.not_mem_nil, or_false] at hr
            omega
          refine ⟨by rw [List.length_append]; simpa using hb.2, fun hm => ?_⟩
          rcases List.mem_append.1 hm with hm | hm
          · have := hi.ownedLt r hm; omega
          · simp only [newlyOwned, List.mem_cons, List.not_mem_nil, or_false] at hm
            omega
      · intro n o' k ho' hk
        have hlen : w.objs.length = objs.length := by
          have := congrArg List.length hi.reads; simpa using this
        rcases Nat.lt_trichotomy n w.objs.length with hn | hn | hn
        · rw [List.getElem?_append_left hn] at ho'
          rw [List.getElem?_append_left (by omega)]
          exact hi.fromFiles n o' k ho' hk
        · rw [List.getElem?_append_right (by omega)] at ho'
          subst hn
          simp only [Nat.sub_self, List.getElem?_cons_zero, Option.some.injEq] at ho'
          subst ho'
          cases hk
        · rw [List.getElem?_eq_none (by simp; omega)] at ho'
          cases ho'
  | makeFromFiles k =>
    simp only [astep, seen]
    obtain ⟨h1, h2, h3⟩ := hi.catalogueOf k
    generalize Api.catalogueOf files w k = ct at h1 h2 h3 ⊢
    obtain ⟨w1, cat, r200, sizes⟩ := ct
    simp only at h1 h2 h3 ⊢
    have hg := h1.grow [.vecs (files k).xyz, .reals (files k).masses] [] (by simp)
    rw [List.append_nil] at hg
    obtain ⟨c1, c2, c3, c4, c5, c6⟩ := hg.cached k _ h2
    refine ⟨?_, rfl⟩
    simp only [newlyOwned, List.append_nil]
    refine ⟨?_, hg.ownedLt, ?_, hg.cached, ?_⟩
    · simp only [List.map_append, List.map_cons, List.map_nil]
      rw [hg.reads]
      have : readObj (w1.heap ++ [.vecs (files k).xyz, .reals (files k).masses])
          ⟨w1.heap.length, w1.heap.length + 1, cat, r200, sizes, (files k).box, (files k).center, some k⟩ =
          some (files k) := by
        unfold readObj
        simp only at c1 c2 c3
        simp only [c1, c2, c3]
        simp
      rw [this]
    · intro o' ho' r hr
      rcases List.mem_append.1 ho' with ho' | ho'
      · exact hg.private_ o' ho' r hr
      · rw [List.mem_singleton] at ho'
        subst ho'
        simp only [List.mem_cons, List.not_mem_nil, or_false] at hr
        have hnew : ∀ r, w1.heap.length ≤ r → r ∉ owned := fun r hr hm => by
          have := h1.ownedLt r hm; omega
        rcases hr with rfl | rfl | rfl | rfl | rfl
        · exact ⟨by simp, hnew _ le_rfl⟩
        · exact ⟨by simp, hnew _ (by omega)⟩
        · exact ⟨lt_of_some c1, c4⟩
        · exact ⟨lt_of_some c2, c5⟩
        · exact ⟨lt_of_some c3, c6⟩
    · intro n o' j ho' hj
      have hlen : w1.objs.length = objs.length := by
        have := congrArg List.length h1.reads; simpa using this
      rcases Nat.lt_trichotomy n w1.objs.length with hn | hn | hn
      · rw [List.getElem?_append_left hn] at ho'
        rw [List.getElem?_append_left (by omega)]
        exact h1.fromFiles n o' j ho' hj
      · rw [List.getElem?_append_right (by omega)] at ho'
        subst hn
        simp only [Nat.sub_self, List.getElem?_cons_zero, Option.some.injEq] at ho'
        subst ho'
        cases hj
        rw [List.getElem?_append_right (by omega), hlen]
        simp
      · rw [List.getElem?_eq_none (by simp; omega)] at ho'
        cases ho'
  | getXYZMasses c n =>
    simp only [astep, seen, objAt hi]
    cases objs[n]? with
    | none => exact ⟨by simpa [newlyOwned] using hi, rfl⟩
    | some o =>
      simp only
      cases hx : getXYZMasses c o with
      | error e => exact ⟨by simpa [newlyOwned] using hi, rfl⟩
      | ok xm =>
        obtain ⟨x, m⟩ := xm
        exact ⟨hi.grow _ _ (by simp [newlyOwned]), by simp [contents, Except.map]⟩
  | getR200 c n =>
    simp only [astep, seen, objAt hi]
    cases objs[n]? with
    | none => exact ⟨by simpa [newlyOwned] using hi, rfl⟩
    | some o =>
      simp only
      cases hx : getR200 c o with
      | error e => exact ⟨by simpa [newlyOwned] using hi, rfl⟩
      | ok r => exact ⟨hi.grow _ _ (by simp [newlyOwned]), by simp [contents, Except.map]⟩
  | getIdxCat n =>
    have hat := objAt hi n
    simp only [astep, seen]
    cases ho : w.objs[n]? with
    | none =>
      rw [ho] at hat
      rw [← hat]
      exact ⟨by simpa [newlyOwned] using hi, rfl⟩
    | some o =>
      rw [ho] at hat
      simp only [Option.bind_some] at hat
      have hmem : o ∈ w.objs := List.mem_of_getElem? ho
      obtain ⟨v, hv⟩ : ∃ v, readObj w.heap o = some v := by
        have : readObj w.heap o ∈ w.objs.map (readObj w.heap) := List.mem_map.2 ⟨o, hmem, rfl⟩
        rw [hi.reads] at this
        obtain ⟨v, -, hv⟩ := List.mem_map.1 this
        exact ⟨v, hv.symm⟩
      rw [← hat, hv]
      simp only
      cases hf : o.files with
      | none =>
        simp only [idxCatOf]
        refine ⟨by simpa [newlyOwned] using hi, ?_⟩
        simp only [contents, Except.map, List.map_cons, List.map_nil, getIdxCat]
        unfold readObj at hv
        split at hv
        · next x m i r s h1 h2 h3 h4 h5 =>
          cases hv
          rw [h3, h5]
        · cases hv
      | some k =>
        have hfk : objs[n]? = some (files k) := hi.fromFiles n o k ho hf
        have hvk : v = files k := by
          rw [← hat, hv] at hfk; exact Option.some.inj hfk
        subst hvk
        obtain ⟨h1, h2, h3⟩ := hi.catalogueOf k
        simp only [idxCatOf]
        generalize Api.catalogueOf files w k = ct at h1 h2 h3 ⊢
        obtain ⟨w1, cat, r200, sizes⟩ := ct
        simp only at h1 h2 h3 ⊢
        obtain ⟨c1, c2, c3, c4, c5, c6⟩ := h1.cached k _ h2
        simp only at c1 c2 c3 c4 c5 c6
        have ho1 : w1.objs[n]? = some o := h3 ▸ ho
        have hr1 : readObj w1.heap o = some (files k) := by
          have := objAt h1 n
          rw [ho1, hfk] at this
          exact this
        have hr2 : readObj w1.heap { o with r200 := r200 } = some (files k) := by
          unfold readObj at hr1 ⊢
          split at hr1
          · next x m i r s e1 e2 e3 e4 e5 =>
            have hr1' := Option.some.inj hr1
            simp only [e1, e2, e3, e5, c2]
            rw [← hr1']
          · cases hr1
        refine ⟨?_, by simp [contents, Except.map, c1, c3, getIdxCat]⟩
        simp only [newlyOwned, List.append_nil]
        refine ⟨?_, h1.ownedLt, ?_, h1.cached, ?_⟩
        · rw [List.map_set, h1.reads]
          rw [hr2]
          apply List.ext_getElem?
          intro j
          rw [List.getElem?_set]
          split
          · next hj =>
            subst hj
            have hlt : n < (objs.map some).length := by
              rw [List.length_map]; exact (List.getElem?_eq_some_iff.1 hfk).1
            rw [if_pos hlt, List.getElem?_map, hfk]; rfl
          · rfl
        · intro o' ho' r hr
          rcases List.mem_or_eq_of_mem_set ho' with ho' | rfl
          · exact h1.private_ o' ho' r hr
          · simp only [List.mem_cons, List.not_mem_nil, or_false] at hr
            have hp := h1.private_ o (List.mem_of_getElem? ho1)
            rcases hr with rfl | rfl | rfl | rfl | rfl
            · exact hp _ (by simp)
            · exact hp _ (by simp)
            · exact hp _ (by simp)
            · exact ⟨lt_of_some c2, c5⟩
            · exact hp _ (by simp)
        · intro j o' k' ho' hk'
          rw [List.getElem?_set] at ho'
          split at ho'
          · next hj =>
            subst hj
            split at ho'
            · cases ho'
              exact hi.fromFiles n o k' ho hk'
            · cases ho'
          · exact h1.fromFiles j o' k' ho' hk'
  | evict k =>
    refine ⟨?_, rfl⟩
    simp only [astep, seen, newlyOwned, List.append_nil]
    refine ⟨hi.reads, hi.ownedLt, hi.private_, ?_, hi.fromFiles⟩
    intro j t ht
    by_cases hj : j = k
    · simp [hj] at ht
    · simp only [if_neg hj] at ht
      exact hi.cached j t ht
  | write r a =>
    have hr := hc r a rfl
    refine ⟨?_, rfl⟩
    simp only [astep, seen, newlyOwned, List.append_nil]
    have hne : ∀ r', r' ∉ owned → (w.heap.set r a)[r']? = w.heap[r']? := by
      intro r' hr'
      rw [List.getElem?_set_ne]
      rintro rfl
      exact hr' hr
    refine ⟨?_, ?_, ?_, ?_, hi.fromFiles⟩
    · rw [← hi.reads]
      apply List.map_congr_left
      intro o ho'
      exact readObj_congr fun r' hr' => hne _ (hi.private_ o ho' r' hr').2
    · intro r' hr'
      rw [List.length_set]
      exact hi.ownedLt r' hr'
    · intro o ho r' hr'
      rw [List.length_set]
      exact hi.private_ o ho r' hr'
    · intro k t ht
      obtain ⟨h1, h2, h3, h4, h5, h6⟩ := hi.cached k t ht
      exact ⟨(hne _ h4).trans h1, (hne _ h5).trans h2, (hne _ h6).trans h3, h4, h5, h6⟩

theorem session_inv (ops : List AOp) (w : World) (owned : List Nat) (objs : List Obj)
    (hi : AInv files w owned objs) (hc : Careful files w owned ops) :
    (session files w ops).2 = (seenAll files objs ops).2 := by
  induction ops generalizing w owned objs with
  | nil => rfl
  | cons op ops ih =>
    obtain ⟨h1, h2⟩ := step_inv hi op hc.1
    simp only [session, seenAll]
    rw [h2, ih _ _ _ h1 hc.2]

/-- C104 (partial). In a session with any number of objects made from arrays and files, any units, and
whatever the cache drops, if the user changes only arrays they handed in or got from `getXYZMasses` or
`getR200`, everything seen is as if objects never changed.  Missing: arrays got from `getIdxCat`. -/
theorem C104_sharing_partial (files : Nat → Obj) (ops : List AOp) (hc : Careful files World.empty [] ops) :
    (session files World.empty ops).2 = (seenAll files [] ops).2 :=
  session_inv ops _ _ _ ⟨rfl, by simp, by simp [World.empty], by simp [World.empty], by simp [World.empty]⟩ hc

theorem session_append (files : Nat → Obj) (w : World) (a b : List AOp) :
    (session files w (a ++ b)).2 = (session files w a).2 ++ (session files (session files w a).1 b).2 := by
  induction a generalizing w with
  | nil => rfl
  | cons op a ih => simp only [List.cons_append, session, ih]

/-- C104 is false for objects made from arrays: what is written to the array got from `getIdxCat` is
the particle list of the object from then on. -/
theorem C104_own_catalogue_refuted (files : Nat → Obj) (c : Cfg ℝ) (i : Input) (o : Obj)
    (ho : construct c i = .ok o) (new : List Nat) :
    (session files World.empty [.make c i, .getIdxCat 0, .write 4 (.ints new), .getIdxCat 0]).2 =
      [.ok [some (.vecs i.xyz), some (.reals i.masses)],
        .ok [some (.ints o.idxCat), some (.ints o.sizes)], .ok [],
        .ok [some (.ints new), some (.ints o.sizes)]] := by
  simp [session, astep, ho, contents, World.empty, Except.map, idxCatOf]

/-- C104 is false for objects made from files: what is written to the array got from one object is the
particle list of objects made from the same files later. -/
theorem C104_other_objects_refuted (files : Nat → Obj) (k : Nat) (new : List Nat) :
    (session files World.empty [.makeFromFiles k, .getIdxCat 0, .write 0 (.ints new), .makeFromFiles k,
      .getIdxCat 1]).2 =
      [.ok [], .ok [some (.ints (files k).idxCat), some (.ints (files k).sizes)], .ok [], .ok [],
        .ok [some (.ints new), some (.ints (files k).sizes)]] := by
  simp [session, astep, contents, World.empty, Except.map, catalogueOf, idxCatOf]

/-- A careful session: positions handed in and radii returned are overwritten. -/
example (files : Nat → Obj) (c : Cfg ℝ) (i : Input) (o : Obj) (ho : construct c i = .ok o) (l m : ℝ)
    (hu : internalLM c = .ok (l, m)) :
    Careful files World.empty [] [.make c i, .write 0 (.vecs []), .getR200 c 0, .write 7 (.reals []),
      .makeFromFiles 3, .getIdxCat 1] := by
  have hr : getR200 c o = .ok (o.r200.map fun x => x * (l / c.outL)) := by
    unfold getR200; rw [hu]
  simp [Careful, astep, ho, World.empty, newlyOwned, readObj, hr]

end Verif.Api
