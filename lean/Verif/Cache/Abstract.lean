import Verif.Cache.Lemmas

/-! Abstract recency-list cache and the refinement of the linked-ring model to it. -/

set_option linter.unusedSectionVars false

namespace Verif.Cache

variable {K V E A : Type}

/-- Abstract cache: entries (oldest first), counters, `full` flag. -/
structure ACache (K V : Type) where
  entries : List (K × V)
  hits : Nat
  misses : Nat
  full : Bool

/-- An empty cache. -/
def ACache.init : ACache K V := ⟨[], 0, 0, false⟩

variable [DecidableEq K]

/-- Value stored under a key. -/
def aget : List (K × V) → K → Option V
  | [], _ => none
  | (k', v) :: d, k => if k' = k then some v else aget d k

/-- Remove a key. -/
def adel : List (K × V) → K → List (K × V)
  | [], _ => []
  | (k', v) :: d, k => if k' = k then d else (k', v) :: adel d k

/-- Store under a key, as a dictionary does: in place of an old value, otherwise at the end. -/
def aset : List (K × V) → K → V → List (K × V)
  | [], k, v => [(k, v)]
  | (k', v') :: d, k, v => if k' = k then (k, v) :: d else (k', v') :: aset d k v

/-- Modes which keep the linked list of caching.py:92-93. -/
def Mode.isLink : Mode → Bool
  | .memory _ => true
  | .bounded _ => true
  | _ => false

/-- First part of a call, caching.py:100-113, 169-173, 184-197: look the key up and mark it as used last. -/
def alookup (m : Mode) (t : ACache K V) (k : K) : ACache K V × Option V :=
  match m with
  | .zero => (t, none)
  | .unbounded =>
    match aget t.entries k with
    | some v => ({ t with hits := t.hits + 1 }, some v)
    | none => (t, none)
  | _ =>
    match aget t.entries k with
    | some v => ({ t with entries := adel t.entries k ++ [(k, v)], hits := t.hits + 1 }, some v)
    | none => (t, none)

/-- Second part of a call, caching.py:114-151, 158-160, 174-177, 198-233: store the result; a full cache loses the entry used least recently. -/
def ainsert (m : Mode) (t : ACache K V) (k : K) (v : V) (avail : Nat) : ACache K V :=
  match m with
  | .zero => { t with misses := t.misses + 1 }
  | .unbounded => { t with entries := aset t.entries k v, misses := t.misses + 1 }
  | m =>
    if (aget t.entries k).isSome then { t with misses := t.misses + 1 }
    else if t.full then
      { t with entries := t.entries.tail ++ [(k, v)], misses := t.misses + 1 }
    else
      { t with entries := t.entries ++ [(k, v)], misses := t.misses + 1,
               full := fullAfter m (t.entries.length + 1) avail }

/-- `cache_clear`, caching.py:239-246. -/
def aclear (_ : ACache K V) : ACache K V := ACache.init

/-- `cache_info`, caching.py:234-237. -/
def ainfo (t : ACache K V) : Info := ⟨t.hits, t.misses, t.entries.length⟩

/-- A call: look up, otherwise compute and store; nothing is stored if the function raises. -/
def acall (m : Mode) (t : ACache K V) (k : K) (o : Except E V) (avail : Nat) :
    ACache K V × Out V E :=
  match alookup m t k with
  | (t1, some v) => (t1, .ok v false)
  | (t1, none) =>
    match o with
    | .error e => (t1, .raised e)
    | .ok v => (ainsert m t1 k v avail, .ok v true)

/-- One operation of the user. -/
def astep (m : Mode) (key : A → K) (t : ACache K V) : Op A V E → ACache K V × Option (Out V E)
  | .call a o avail => let r := acall m t (key a) o avail; (r.1, some r.2)
  | .clear => (aclear t, none)

/-- A history of operations, with what is seen after each. -/
def arun (m : Mode) (key : A → K) :
    ACache K V → List (Op A V E) → ACache K V × List (Option (Out V E) × Info)
  | t, [] => (t, [])
  | t, op :: ops =>
    let r := astep m key t op
    let rest := arun m key r.1 ops
    (rest.1, (r.2, ainfo r.1) :: rest.2)

/-! ### association list facts -/

theorem aget_none_iff (d : List (K × V)) (k : K) : aget d k = none ↔ k ∉ d.map Prod.fst := by
  induction d with
  | nil => simp [aget]
  | cons p d ih =>
    obtain ⟨k', v⟩ := p
    by_cases h : k' = k
    · simp [aget, h]
    · simp [aget, h, ih, Ne.symm h]

theorem aget_some_split {d : List (K × V)} {k : K} {v : V} (h : aget d k = some v) :
    ∃ d1 d2, d = d1 ++ (k, v) :: d2 ∧ adel d k = d1 ++ d2 := by
  induction d with
  | nil => simp [aget] at h
  | cons p d ih =>
    obtain ⟨k', v'⟩ := p
    by_cases hk : k' = k
    · subst hk
      simp [aget] at h
      subst h
      exact ⟨[], d, by simp, by simp [adel]⟩
    · simp [aget, hk] at h
      obtain ⟨d1, d2, h1, h2⟩ := ih h
      exact ⟨(k', v') :: d1, d2, by simp [h1], by simp [adel, hk, h2]⟩

/-- Unbounded wrapper: the dictionary as entries. -/
def asVals (es : List (K × V)) : Dict K V := es.map fun e => (e.1, Slot.val e.2)

theorem asVals_get (es : List (K × V)) (k : K) :
    Dict.get (asVals es) k = (aget es k).map Slot.val := by
  induction es with
  | nil => simp [asVals, Dict.get, aget]
  | cons e es ih =>
    obtain ⟨k', v⟩ := e
    by_cases h : k' = k
    · simp [asVals, Dict.get, aget, h]
    · simp only [asVals, List.map_cons, Dict.get, h, if_false, aget]
      exact ih

theorem asVals_set (es : List (K × V)) (k : K) (v : V) :
    Dict.set (asVals es) k (.val v) = asVals (aset es k v) := by
  induction es with
  | nil => simp [asVals, Dict.set, aset]
  | cons e es ih =>
    obtain ⟨k', v'⟩ := e
    by_cases h : k' = k
    · simp [asVals, Dict.set, aset, h]
    · simp only [asVals, List.map_cons, Dict.set, h, if_false, aset, List.cons.injEq, true_and]
      exact ih

/-! ### simulation -/

/-- Simulation relation between the closure state and the abstract cache. -/
def Rel (m : Mode) (s : State K V) (t : ACache K V) : Prop :=
  s.hits = t.hits ∧ s.misses = t.misses ∧
  match m with
  | .zero => s.cache = [] ∧ t.entries = []
  | .unbounded => s.cache = asVals t.entries
  | _ => s.full = t.full ∧ (t.full = true → t.entries ≠ []) ∧ ∃ as, Rep s as t.entries

theorem Rel.init (m : Mode) : Rel m (State.init : State K V) ACache.init := by
  refine ⟨rfl, rfl, ?_⟩
  cases m with
  | memory l => exact ⟨rfl, by simp [ACache.init], [], Rep.init⟩
  | zero => exact ⟨rfl, rfl⟩
  | unbounded => rfl
  | bounded n => exact ⟨rfl, by simp [ACache.init], [], Rep.init⟩

theorem Rel.clear {m : Mode} {s : State K V} {t : ACache K V} (h : Rel m s t) :
    Rel m (cacheClear s) (aclear t) := by
  refine ⟨rfl, rfl, ?_⟩
  obtain ⟨_, _, h⟩ := h
  cases m with
  | memory l => obtain ⟨_, _, as, h⟩ := h; exact ⟨rfl, by simp [aclear, ACache.init], [], h.clear⟩
  | zero => exact ⟨rfl, rfl⟩
  | unbounded => rfl
  | bounded n => obtain ⟨_, _, as, h⟩ := h; exact ⟨rfl, by simp [aclear, ACache.init], [], h.clear⟩

theorem Rel.info {m : Mode} {s : State K V} {t : ACache K V} (h : Rel m s t) :
    cacheInfo s = ainfo t := by
  obtain ⟨h1, h2, h⟩ := h
  have : s.cache.length = t.entries.length := by
    cases m with
    | memory l => obtain ⟨_, _, as, h⟩ := h; exact h.cacheLen
    | zero => simp [h.1, h.2]
    | unbounded => simp only at h; simp [h, asVals]
    | bounded n => obtain ⟨_, _, as, h⟩ := h; exact h.cacheLen
  simp [cacheInfo, ainfo, h1, h2, this]

theorem moveToFront_counters (s : State K V) (a : Addr) :
    (moveToFront s a).hits = s.hits ∧ (moveToFront s a).misses = s.misses ∧
      (moveToFront s a).full = s.full := ⟨rfl, rfl, rfl⟩

/-- Lookup of a link wrapper. -/
theorem link_lookup {s : State K V} {t : ACache K V} {as : List Addr} (h : Rep s as t.entries)
    (k : K) :
    (∀ v, aget t.entries k = some v → ∃ a as', s.cache.get k = some (.link a) ∧
        s.result a = some v ∧ Rep (moveToFront s a) as' (adel t.entries k ++ [(k, v)])) ∧
    (aget t.entries k = none → s.cache.get k = none) := by
  constructor
  · intro v hv
    obtain ⟨d1, d2, hd, hdel⟩ := aget_some_split hv
    rw [hd] at h
    obtain ⟨a1, a, a2, rfl, hl1, hl2⟩ := h.split
    obtain ⟨hg, hr⟩ := h.get_some hl1
    exact ⟨a, _, hg, hr, by rw [hdel]; exact h.moveToFront hl1 hl2⟩
  · intro hn
    rw [h.get_none]; exact (aget_none_iff _ _).1 hn


theorem Rel.lookup {m : Mode} {s : State K V} {t : ACache K V} (h : Rel m s t) (k : K) :
    Rel m (lookupPhase m s k).1 (alookup m t k).1 ∧
      (lookupPhase m s k).2 = (alookup m t k).2 := by
  have h0 := h
  obtain ⟨hh, hm, h⟩ := h
  cases m with
  | zero => exact ⟨h0, rfl⟩
  | unbounded =>
    simp only at h
    simp only [lookupPhase, alookup, h, asVals_get]
    cases hg : aget t.entries k with
    | none => exact ⟨h0, rfl⟩
    | some v => exact ⟨⟨by simp [hh], hm, rfl⟩, rfl⟩
  | memory l =>
    obtain ⟨hf, hne, as, hr⟩ := h
    obtain ⟨l1, l2⟩ := link_lookup hr k
    simp only [lookupPhase, alookup]
    cases hg : aget t.entries k with
    | none => simp only [l2 hg]; exact ⟨h0, trivial⟩
    | some v =>
      obtain ⟨a, as', h1, h2, h3⟩ := l1 v hg
      simp only [h1, h2]
      refine ⟨⟨by simp [moveToFront_counters, hh], hm, hf, by simp, as', ?_⟩, by simp⟩
      exact ⟨h3.seg, h3.nodup, h3.lt, h3.ent, h3.dict, h3.keys⟩
  | bounded n =>
    obtain ⟨hf, hne, as, hr⟩ := h
    obtain ⟨l1, l2⟩ := link_lookup hr k
    simp only [lookupPhase, alookup]
    cases hg : aget t.entries k with
    | none => simp only [l2 hg]; exact ⟨h0, trivial⟩
    | some v =>
      obtain ⟨a, as', h1, h2, h3⟩ := l1 v hg
      simp only [h1, h2]
      refine ⟨⟨by simp [moveToFront_counters, hh], hm, hf, by simp, as', ?_⟩, by simp⟩
      exact ⟨h3.seg, h3.nodup, h3.lt, h3.ent, h3.dict, h3.keys⟩

/-- Insertion phase of a link wrapper. -/
theorem link_insert {m : Mode} (hm : m.isLink = true) {s : State K V} {t : ACache K V}
    (h : Rel m s t) (k : K) (v : V) (avail : Nat) :
    ∃ s', insertPhase m s k v avail = some s' ∧ Rel m s' (ainsert m t k v avail) := by
  have h0 := h
  obtain ⟨hh, hmi, h⟩ := h
  have hcore : s.full = t.full ∧ (t.full = true → t.entries ≠ []) ∧ ∃ as, Rep s as t.entries := by
    cases m <;> simp_all [Mode.isLink]
  obtain ⟨hf, hne, as, hr⟩ := hcore
  have hgoal : ∀ {s' : State K V} {t' : ACache K V}, s'.hits = t'.hits → s'.misses = t'.misses →
      s'.full = t'.full → (t'.full = true → t'.entries ≠ []) → (∃ as, Rep s' as t'.entries) →
      Rel m s' t' := by
    intro s' t' a b c d e
    refine ⟨a, b, ?_⟩
    cases m with
    | zero => simp [Mode.isLink] at hm
    | unbounded => simp [Mode.isLink] at hm
    | memory l => exact ⟨c, d, e⟩
    | bounded n => exact ⟨c, d, e⟩
  have e1 : insertPhase m s k v avail =
      if (s.cache.get k).isSome then some { s with misses := s.misses + 1 }
      else if s.full then
        match evictInsert s k v with
        | none => none
        | some s' => some { s' with misses := s'.misses + 1 }
      else
        let s' := freshInsert s k v
        let s' := { s' with full := fullAfter m s'.cache.length avail }
        some { s' with misses := s'.misses + 1 } := by
    clear hgoal h h0; cases m <;> first | rfl | simp [Mode.isLink] at hm
  have e2 : ainsert m t k v avail =
      if (aget t.entries k).isSome then { t with misses := t.misses + 1 }
      else if t.full then
        { t with entries := t.entries.tail ++ [(k, v)], misses := t.misses + 1 }
      else
        { t with entries := t.entries ++ [(k, v)], misses := t.misses + 1,
                 full := fullAfter m (t.entries.length + 1) avail } := by
    clear hgoal h h0 e1; cases m <;> first | rfl | simp [Mode.isLink] at hm
  rw [e1, e2]
  cases hg : aget t.entries k with
  | some w =>
    obtain ⟨a, as', h1, -, -⟩ := (link_lookup hr k).1 w hg
    simp only [h1, Option.isSome_some, if_true]
    exact ⟨_, rfl, hgoal hh (by simp [hmi]) hf hne ⟨as, hr.seg, hr.nodup, hr.lt, hr.ent, hr.dict, hr.keys⟩⟩
  | none =>
    have h1 := (link_lookup hr k).2 hg
    have hk := (aget_none_iff _ _).1 hg
    simp only [h1, Option.isSome_none, Bool.false_eq_true, if_false, hf]
    cases hfull : t.full with
    | true =>
      obtain ⟨e, es, he⟩ : ∃ e es, t.entries = e :: es := by
        cases hE : t.entries with
        | nil => exact absurd hE (hne hfull)
        | cons e es => exact ⟨e, es, rfl⟩
      rw [he] at hr hk
      obtain ⟨s', as', h2, h3, h4, h5, h6⟩ := hr.evictInsert hk v
      simp only [h2, he, if_true, List.tail_cons]
      refine ⟨_, rfl, hgoal (by simp [h4, hh]) (by simp [h5, hmi]) (by simp [h6, hf, hfull]) (by simp)
        ⟨as', h3.seg, h3.nodup, h3.lt, h3.ent, h3.dict, h3.keys⟩⟩
    | false =>
      have h3 := hr.freshInsert hk v
      simp only [Bool.false_eq_true, if_false]
      refine ⟨_, rfl, hgoal (by simp [freshInsert, hh]) (by simp [freshInsert, hmi]) ?_ (by simp)
        ⟨_, h3.seg, h3.nodup, h3.lt, h3.ent, h3.dict, h3.keys⟩⟩
      have := h3.cacheLen
      simp only [List.length_append, List.length_cons, List.length_nil, Nat.zero_add] at this
      simp [this]

theorem Rel.insert {m : Mode} {s : State K V} {t : ACache K V} (h : Rel m s t) (k : K) (v : V)
    (avail : Nat) :
    ∃ s', insertPhase m s k v avail = some s' ∧ Rel m s' (ainsert m t k v avail) := by
  cases m with
  | zero => exact ⟨_, rfl, h.1, by simp [ainsert, h.2.1], h.2.2⟩
  | unbounded =>
    refine ⟨_, rfl, h.1, by simp [ainsert, h.2.1], ?_⟩
    have := h.2.2
    simp only at this
    simp only [ainsert, this, asVals_set]
  | memory l => exact link_insert rfl h k v avail
  | bounded n => exact link_insert rfl h k v avail

theorem Rel.call {m : Mode} {s : State K V} {t : ACache K V} (h : Rel m s t) (k : K)
    (o : Except E V) (avail : Nat) :
    Rel m (call m s k o avail).1 (acall m t k o avail).1 ∧
      (call m s k o avail).2 = (acall m t k o avail).2 := by
  obtain ⟨h1, h2⟩ := h.lookup k
  unfold Cache.call acall
  rcases hl : lookupPhase m s k with ⟨s1, r⟩
  rcases ha : alookup m t k with ⟨t1, r'⟩
  rw [hl, ha] at h1 h2
  simp only at h1 h2
  subst h2
  cases r with
  | some v => exact ⟨h1, rfl⟩
  | none =>
    cases o with
    | error e => exact ⟨h1, rfl⟩
    | ok v =>
      obtain ⟨s', h3, h4⟩ := h1.insert k v avail
      simp only [h3]
      exact ⟨h4, trivial⟩

theorem Rel.step {m : Mode} {s : State K V} {t : ACache K V} (h : Rel m s t) (key : A → K)
    (op : Op A V E) :
    Rel m (step m key s op).1 (astep m key t op).1 ∧
      (step m key s op).2 = (astep m key t op).2 := by
  cases op with
  | call a o avail =>
    obtain ⟨h1, h2⟩ := h.call (key a) o avail
    exact ⟨h1, by simp [Cache.step, astep, h2]⟩
  | clear => exact ⟨h.clear, rfl⟩

/-- Refinement: the linked-ring cache and the recency list produce the same observations. -/
theorem Rel.run {m : Mode} {s : State K V} {t : ACache K V} (h : Rel m s t) (key : A → K)
    (ops : List (Op A V E)) :
    Rel m (run m key s ops).1 (arun m key t ops).1 ∧
      (run m key s ops).2 = (arun m key t ops).2 := by
  induction ops generalizing s t with
  | nil => exact ⟨h, rfl⟩
  | cons op ops ih =>
    obtain ⟨h1, h2⟩ := h.step key op
    obtain ⟨h3, h4⟩ := ih h1
    exact ⟨h3, by simp [Cache.run, arun, h2, h4, h1.info]⟩

end Verif.Cache
