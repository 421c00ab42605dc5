/-
Model of `lru_cache` in /repo/cosmic_profiles/common/caching.py (lines 52-252).

The Python closure keeps a dictionary `cache`, a circular doubly linked list of 4-element
lists (`PREV, NEXT, KEY, RESULT`) starting at `root`, two counters and a flag `full`.
Links are modelled by addresses (`Nat`) into four maps; object identity of Python lists is
address equality.  The dictionary is an association list.

Simplifications (whole file): hashing of keys is not modelled (a key is an element of a type
with decidable equality; unhashable arguments are not modelled); reference counts / `__del__`
side effects are not modelled; counters are unbounded (as in Python).
-/
namespace Verif.Cache

variable {K V E : Type}

/-- caching.py:84 `PREV, NEXT, KEY, RESULT = 0, 1, 2, 3`: address of a link list object. -/
abbrev Addr := Nat

/-- A value of the dictionary `cache` (caching.py:87): the link wrappers store links
(lines 142, 147, 224, 229), the unbounded wrapper stores results (line 173). -/
inductive Slot (V : Type) where
  | link (a : Addr)
  | val (v : V)
deriving DecidableEq

/-- Python dictionary (caching.py:87 `cache = {}`) as an association list. -/
abbrev Dict (K V : Type) := List (K × Slot V)

/-- `cache.get(key)` (caching.py:90, 102, 168, 184); `none` models the default. -/
def Dict.get [DecidableEq K] : Dict K V → K → Option (Slot V)
  | [], _ => none
  | (k', s) :: d, k => if k' = k then some s else Dict.get d k

/-- `cache[key] = s` (caching.py:142, 147, 173, 224, 229): overwrite or append. -/
def Dict.set [DecidableEq K] : Dict K V → K → Slot V → Dict K V
  | [], k, s => [(k, s)]
  | (k', s') :: d, k, s => if k' = k then (k, s) :: d else (k', s') :: Dict.set d k s

/-- `del cache[oldkey]` (caching.py:138, 220), after the presence test. -/
def Dict.del [DecidableEq K] : Dict K V → K → Dict K V
  | [], _ => []
  | (k', s') :: d, k => if k' = k then d else (k', s') :: Dict.del d k

/-- Pointwise update of a map from addresses (assignment to one list element). -/
def upd {β : Type} (f : Addr → β) (a : Addr) (b : β) : Addr → β :=
  fun x => if x = a then b else f x

/-- The closure variables of `decorating_function` (caching.py:86-93): `cache`, `hits`,
`misses`, `full`, `root` and the link objects.  `fresh` is the next unused address
(allocation of a new Python list). -/
structure State (K V : Type) where
  cache : Dict K V
  hits : Nat
  misses : Nat
  full : Bool
  root : Addr
  prev : Addr → Addr
  next : Addr → Addr
  key : Addr → Option K
  result : Addr → Option V
  fresh : Addr

/-- caching.py:86-93: initial closure; `root[:] = [root, root, None, None]`. -/
def State.init : State K V where
  cache := []
  hits := 0
  misses := 0
  full := false
  root := 0
  prev := fun _ => 0
  next := fun _ => 0
  key := fun _ => none
  result := fun _ => none
  fresh := 1

/-- The four wrappers selected at decoration time (caching.py:95, 153, 162, 177). -/
inductive Mode where
  | memory (limit : Nat)
  | zero
  | unbounded
  | bounded (maxsize : Int)
deriving DecidableEq, Repr

/-- caching.py:73-74, 95, 153, 162, 177: which wrapper is chosen for
`lru_cache(maxsize, use_memory_up_to)`.  `use_memory_up_to` is modelled as a number of bytes
(0 = falsy), `maxsize = none` is Python `None`. -/
def selectMode (maxsize : Option Int) (useMemoryUpTo : Nat) : Mode :=
  if useMemoryUpTo ≠ 0 then .memory useMemoryUpTo
  else match maxsize with
    | some n => if n = 0 then .zero else .bounded n
    | none => .unbounded

/-- caching.py:104-113 / 186-195: unlink `a` and relink it just before `root`
("move the link to the front of the circular queue"), statement by statement. -/
def moveToFront (s : State K V) (a : Addr) : State K V :=
  let linkPrev := s.prev a
  let linkNext := s.next a
  let s := { s with next := upd s.next linkPrev linkNext }
  let s := { s with prev := upd s.prev linkNext linkPrev }
  let last := s.prev s.root
  let s := { s with next := upd s.next last a }
  let s := { s with prev := upd s.prev s.root a }
  let s := { s with prev := upd s.prev a last }
  { s with next := upd s.next a s.root }

/-- First critical section of the link wrappers (caching.py:100-113, 182-195) and the
dictionary lookup of the unbounded wrapper (caching.py:167-171).  Returns the cached result on
a hit.  `zero` mode has no lookup (caching.py:155-160).  A link without result cannot be in
the dictionary; it is mapped to a miss here and excluded by the invariant. -/
def lookupPhase [DecidableEq K] (m : Mode) (s : State K V) (k : K) : State K V × Option V :=
  match m with
  | .zero => (s, none)
  | .unbounded =>
    match s.cache.get k with
    | some (.val v) => ({ s with hits := s.hits + 1 }, some v)
    | _ => (s, none)
  | _ =>
    match s.cache.get k with
    | some (.link a) =>
      let s' := moveToFront s a
      match s.result a with
      | some v => ({ s' with hits := s'.hits + 1 }, some v)
      | none => (s, none)
    | _ => (s, none)

/-- caching.py:123-142 / 205-224: cache full - store into the old root, make the oldest link
the new root, delete its key.  `none` models the `KeyError` of `del cache[oldkey]`. -/
def evictInsert [DecidableEq K] (s : State K V) (k : K) (v : V) : Option (State K V) :=
  let oldroot := s.root
  let s := { s with key := upd s.key oldroot (some k) }
  let s := { s with result := upd s.result oldroot (some v) }
  let s := { s with root := s.next oldroot }
  let oldkey := s.key s.root
  let s := { s with key := upd s.key s.root none }
  let s := { s with result := upd s.result s.root none }
  match oldkey with
  | none => none
  | some ok =>
    match s.cache.get ok with
    | none => none
    | some _ =>
      let s := { s with cache := s.cache.del ok }
      some { s with cache := s.cache.set k (.link oldroot) }

/-- caching.py:144-147 / 226-229: put the result in a new link before the root. -/
def freshInsert [DecidableEq K] (s : State K V) (k : K) (v : V) : State K V :=
  let last := s.prev s.root
  let link := s.fresh
  let s := { s with fresh := s.fresh + 1
                    prev := upd s.prev link last
                    next := upd s.next link s.root
                    key := upd s.key link (some k)
                    result := upd s.result link (some v) }
  let s := { s with next := upd s.next last link }
  let s := { s with prev := upd s.prev s.root link }
  { s with cache := s.cache.set k (.link link) }

/-- New value of `full` after a non-evicting insertion: caching.py:148-149 (memory wrapper,
`avail` is `psutil.virtual_memory().available`) and caching.py:230 (`len(cache) >= maxsize`). -/
def fullAfter (m : Mode) (len avail : Nat) : Bool :=
  match m with
  | .memory limit => decide (avail < limit)
  | .bounded maxsize => decide (maxsize ≤ (len : Int))
  | _ => false

/-- Second phase of a wrapper, after `user_function` returned `v`: caching.py:115-150,
197-231 (link wrappers), 158-160 (`maxsize == 0`), 172-175 (unbounded).  `none` = `KeyError`. -/
def insertPhase [DecidableEq K] (m : Mode) (s : State K V) (k : K) (v : V) (avail : Nat) :
    Option (State K V) :=
  match m with
  | .zero => some { s with misses := s.misses + 1 }
  | .unbounded =>
    some { s with cache := s.cache.set k (.val v), misses := s.misses + 1 }
  | m =>
    if (s.cache.get k).isSome then
      some { s with misses := s.misses + 1 }
    else if s.full then
      match evictInsert s k v with
      | none => none
      | some s' => some { s' with misses := s'.misses + 1 }
    else
      let s' := freshInsert s k v
      let s' := { s' with full := fullAfter m s'.cache.length avail }
      some { s' with misses := s'.misses + 1 }

/-- caching.py:239-246 `cache_clear`. -/
def cacheClear (s : State K V) : State K V :=
  { s with
    cache := []
    prev := upd s.prev s.root s.root
    next := upd s.next s.root s.root
    key := upd s.key s.root none
    result := upd s.result s.root none
    hits := 0, misses := 0, full := false }

/-- caching.py:234-237 `cache_info()`, without the constant `maxsize` field. -/
structure Info where
  hits : Nat
  misses : Nat
  currsize : Nat
deriving DecidableEq, Repr

/-- caching.py:234-237. -/
def cacheInfo (s : State K V) : Info := ⟨s.hits, s.misses, s.cache.length⟩

/-- Observable outcome of one call of the decorated function.
`evaluated` tells whether `user_function` was run. -/
inductive Out (V E : Type) where
  | ok (v : V) (evaluated : Bool)
  | raised (e : E)
  | keyError
deriving DecidableEq, Repr

/-- One complete, undisturbed call of the decorated function (caching.py:93-151, 155-160,
164-175, 179-232) whose arguments have cache key `k`; `o` is what `user_function` does if it is
run and `avail` the free memory seen if it is inspected. -/
def call [DecidableEq K] (m : Mode) (s : State K V) (k : K) (o : Except E V) (avail : Nat) :
    State K V × Out V E :=
  match lookupPhase m s k with
  | (s1, some v) => (s1, .ok v false)
  | (s1, none) =>
    match o with
    | .error e => (s1, .raised e)
    | .ok v =>
      match insertPhase m s1 k v avail with
      | some s2 => (s2, .ok v true)
      | none => (s1, .keyError)

/-- Operations a user can perform on a decorated function.  `call a o avail`: call with
argument `a`; should `user_function` be run, it does `o`. -/
inductive Op (A V E : Type) where
  | call (a : A) (o : Except E V) (avail : Nat)
  | clear
deriving Repr

variable {A : Type}

/-- One operation; `key` is `make_key` (caching.py:26-50) on the argument.
The output is `none` for `cache_clear()`. -/
def step [DecidableEq K] (m : Mode) (key : A → K) (s : State K V) :
    Op A V E → State K V × Option (Out V E)
  | .call a o avail => let r := call m s (key a) o avail; (r.1, some r.2)
  | .clear => (cacheClear s, none)

/-- A history of operations: final state and the list of outputs, each with the
`cache_info()` that can be read after the operation. -/
def run [DecidableEq K] (m : Mode) (key : A → K) :
    State K V → List (Op A V E) → State K V × List (Option (Out V E) × Info)
  | s, [] => (s, [])
  | s, op :: ops =>
    let r := step m key s op
    let rest := run m key r.1 ops
    (rest.1, (r.2, cacheInfo r.1) :: rest.2)

/-! ### Concurrent use: the lock is released while `user_function` runs
(caching.py:114, 196), so calls of several threads (or re-entrant calls of one thread)
interleave at the granularity of the two critical sections.  In the unbounded and zero
wrappers the individual dictionary operations are atomic under the GIL; the counter updates
`hits += 1` / `misses += 1` outside a lock are modelled as atomic, which is a simplification
(in `Counters.lean` they are not). -/

/-- Threads that have missed and are running `user_function`. -/
abbrev Pending (A : Type) := List (Nat × A)

/-- The closure of the decorated function and the calls which are running. -/
structure CState (A K V : Type) where
  st : State K V
  pending : Pending A

/-- Events of a concurrent execution. -/
inductive Event (A E : Type) where
  /-- thread `t` calls with argument `a`: first critical section -/
  | start (t : Nat) (a : A)
  /-- the running `user_function` of thread `t` ends (raising `e` if `fail = some e`),
  then the second critical section runs -/
  | finish (t : Nat) (fail : Option E) (avail : Nat)
  | clear
deriving Repr

/-- The argument thread `t` is running `user_function` on (its most recent unfinished call). -/
def pendingOf : Pending A → Nat → Option A
  | [], _ => none
  | (t', a) :: p, t => if t' = t then some a else pendingOf p t

/-- Thread `t` leaves its most recent unfinished call. -/
def pendingDrop : Pending A → Nat → Pending A
  | [], _ => []
  | (t', a) :: p, t => if t' = t then p else (t', a) :: pendingDrop p t

/-- One event (caching.py:100-113 / 182-195 for `start`, 114-151 / 196-232 for `finish`) for the
deterministic user function `f` (which may in addition fail at any call).
Output = (argument, outcome) of the call that ends with this event, if any.
`finish` of a thread that is not running anything is impossible and ignored. -/
def cstep [DecidableEq K] (m : Mode) (key : A → K) (f : A → V) (c : CState A K V) :
    Event A E → CState A K V × Option (A × Out V E)
  | .start t a =>
    match lookupPhase m c.st (key a) with
    | (s1, some v) => (⟨s1, c.pending⟩, some (a, .ok v false))
    | (s1, none) => (⟨s1, (t, a) :: c.pending⟩, none)
  | .finish t fail avail =>
    match pendingOf c.pending t with
    | none => (c, none)
    | some a =>
      let p := pendingDrop c.pending t
      match fail with
      | some e => (⟨c.st, p⟩, some (a, .raised e))
      | none =>
        match insertPhase m c.st (key a) (f a) avail with
        | some s2 => (⟨s2, p⟩, some (a, .ok (f a) true))
        | none => (⟨c.st, p⟩, some (a, .keyError))
  | .clear => (⟨cacheClear c.st, c.pending⟩, none)

/-- A concurrent execution: final state and, for each event, the call that ended with it and the
`cache_info()` that can be read after it. -/
def crun [DecidableEq K] (m : Mode) (key : A → K) (f : A → V) :
    CState A K V → List (Event A E) → CState A K V × List (Option (A × Out V E) × Info)
  | c, [] => (c, [])
  | c, e :: es =>
    let r := cstep m key f c e
    let rest := crun m key f r.1 es
    (rest.1, (r.2, cacheInfo r.1.st) :: rest.2)

end Verif.Cache
