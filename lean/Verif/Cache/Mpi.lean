import Verif.Cache.Concurrent
import Mathlib.Data.Fintype.Basic
import Mathlib.Algebra.BigOperators.Group.Finset.Basic
import Mathlib.Algebra.Order.BigOperators.Group.Finset

/-!
# Cached functions containing collective communication (C99)

`getFoFSHData` (`cosmic_profiles/gadget/read_fof.py:30-138`) is called by all processes of an MPI
program.  Its inner function reads the share of the files of its process and then exchanges data with
all other processes (`gather`, `bcast`, `Barrier`, `Gatherv`, `Bcast`, lines 85-134).  The inner function
is cached, by each process for itself (lines 135-138).

Simplification: all collective operations of one evaluation of the inner function are one step, in which
all processes take part.
-/

set_option linter.unusedSectionVars false

namespace Verif.Cache

/-! ## Model -/

/-- One process: its cache, the calls of the inner function still to be made, whether it is inside the
inner function, and the calls completed so far with their results. -/
structure Proc (K V : Type) where
  cache : State K V
  todo : List K
  waiting : Bool
  got : List (K × V)

/-- `getFoFSHData` calls the inner function twice per request, read_fof.py:137-138. -/
def innerCalls {K : Type} (reqs : List K) : List K := reqs.flatMap fun k => [k, k]

/-- All processes at the beginning of a program making the given requests. -/
def procsInit {R K V : Type} (reqs : List K) : R → Proc K V :=
  fun _ => ⟨State.init, innerCalls reqs, false, []⟩

variable {R K V : Type} [DecidableEq R] [DecidableEq K]

/-- Steps of the program.  `R` are the processes.  `assembled keys` is what the processes assemble (and
broadcast) if process `r` contributes its share for the request `keys r`.  `env avail` says that process `r` may see `avail r` bytes
of free memory at the same exchange. -/
inductive MpiStep (m : Mode) (env : (R → Nat) → Prop) (assembled : (R → K) → V) : (R → Proc K V) → (R → Proc K V) → Prop
  /-- the cache of process `r` has the result, caching.py:100-113, 167-171, 182-195 -/
  | hit (g : R → Proc K V) (r : R) (k : K) (rest : List K) (s' : State K V) (v : V)
      (hw : (g r).waiting = false) (ht : (g r).todo = k :: rest)
      (hl : lookupPhase m (g r).cache k = (s', some v)) :
      MpiStep m env assembled g (Function.update g r ⟨s', rest, false, (g r).got ++ [(k, v)]⟩)
  /-- process `r` starts to evaluate the inner function -/
  | miss (g : R → Proc K V) (r : R) (k : K) (rest : List K) (s' : State K V)
      (hw : (g r).waiting = false) (ht : (g r).todo = k :: rest)
      (hl : lookupPhase m (g r).cache k = (s', none)) :
      MpiStep m env assembled g (Function.update g r ⟨s', k :: rest, true, (g r).got⟩)
  /-- all processes are inside the inner function and exchange data; then each stores the result in its
  own cache, having read its own `avail`, caching.py:115-150 -/
  | exchange (g : R → Proc K V) (keys : R → K) (avail : R → Nat) (new : R → State K V)
      (hw : ∀ r, (g r).waiting = true ∧ (g r).todo.head? = some (keys r))
      (ha : env avail)
      (hi : ∀ r, insertPhase m (g r).cache (keys r) (assembled keys) (avail r) = some (new r)) :
      MpiStep m env assembled g
        (fun r => ⟨new r, (g r).todo.tail, false, (g r).got ++ [(keys r, assembled keys)]⟩)

/-- `n` steps. -/
inductive MpiRun (m : Mode) (env : (R → Nat) → Prop) (assembled : (R → K) → V) : Nat → (R → Proc K V) → (R → Proc K V) → Prop
  | refl (g : R → Proc K V) : MpiRun m env assembled 0 g g
  | tail {n : Nat} {g g' g'' : R → Proc K V} (h : MpiRun m env assembled n g g')
      (hs : MpiStep m env assembled g' g'') : MpiRun m env assembled (n + 1) g g''

/-! ## Specification -/

/-- All processes have finished. -/
def AllDone (g : R → Proc K V) : Prop := ∀ r, (g r).todo = []

/-- Nothing can happen any more, though some process has not finished. -/
def Deadlock (m : Mode) (env : (R → Nat) → Prop) (assembled : (R → K) → V) (g : R → Proc K V) : Prop :=
  ¬ AllDone g ∧ ∀ g', ¬ MpiStep m env assembled g g'

/-- At the same exchange, either all processes see less free memory than the limit of a memory-limited
cache or none does.  No restriction for the other kinds of cache. -/
def SameVerdict (m : Mode) (avail : R → Nat) : Prop :=
  ∀ limit, m = .memory limit → ∀ r r', avail r < limit ↔ avail r' < limit

/-! ## Lemmas -/

/-- One hit of a single process. -/
def hitStep (m : Mode) (x : State K V × List K × List (K × V)) :
    Option (State K V × List K × List (K × V)) :=
  match x.2.1 with
  | [] => none
  | k :: rest => (lookupPhase m x.1 k).2.map fun v =>
      ((lookupPhase m x.1 k).1, rest, x.2.2 ++ [(k, v)])

/-- Any number of hits. -/
inductive Hits (m : Mode) : State K V × List K × List (K × V) → State K V × List K × List (K × V) → Prop
  | refl (x : State K V × List K × List (K × V)) : Hits m x x
  | head {x y z : State K V × List K × List (K × V)} (h : hitStep m x = some y) (t : Hits m y z) :
      Hits m x z

theorem Hits.tail {m : Mode} {x y z : State K V × List K × List (K × V)} (h : Hits m x y)
    (hs : hitStep m y = some z) : Hits m x z := by
  induction h with
  | refl x => exact .head hs (.refl _)
  | head h _ ih => exact .head h (ih hs)

/-- The end of the hits is unique. -/
theorem Hits.unique {m : Mode} {x y z : State K V × List K × List (K × V)} (h : Hits m x y)
    (hy : hitStep m y = none) (h' : Hits m x z) (hz : hitStep m z = none) : y = z := by
  induction h with
  | refl x =>
    cases h' with
    | refl => rfl
    | head h1 _ => rw [hy] at h1; cases h1
  | head h1 _ ih =>
    cases h' with
    | refl => rw [hz] at h1; cases h1
    | head h2 t =>
      rw [h1] at h2
      obtain rfl := Option.some.inj h2
      exact ih hy t

theorem lookup_none (m : Mode) (s : State K V) (k : K) (h : (lookupPhase m s k).2 = none) :
    (lookupPhase m s k).1 = s := by
  cases m <;> simp only [lookupPhase] at h ⊢ <;> (repeat' split) <;> simp_all

/-- Invariant: there is a common state (after the last exchange), from which every process has only
made hits. -/
def MpiInv (m : Mode) (assembled : (R → K) → V) (calls : List K) (g : R → Proc K V) : Prop :=
  ∃ x : State K V × List K × List (K × V), CInv m id (fun k => assembled fun _ => k) x.1 ∧
    (x.2.2.map Prod.fst ++ x.2.1 = calls) ∧ (∀ e ∈ x.2.2, e.2 = assembled fun _ => e.1) ∧
    ∀ r, Hits m x ((g r).cache, (g r).todo, (g r).got) ∧
      ((g r).waiting = true → (g r).todo ≠ [] ∧
        hitStep m ((g r).cache, (g r).todo, (g r).got) = none)

theorem Hits.inv {m : Mode} {assembled : (R → K) → V} {calls : List K}
    {x y : State K V × List K × List (K × V)} (h : Hits m x y)
    (h1 : CInv m id (fun k => assembled fun _ => k) x.1)
    (h2 : x.2.2.map Prod.fst ++ x.2.1 = calls) (h3 : ∀ e ∈ x.2.2, e.2 = assembled fun _ => e.1) :
    CInv m id (fun k => assembled fun _ => k) y.1 ∧ y.2.2.map Prod.fst ++ y.2.1 = calls ∧
      ∀ e ∈ y.2.2, e.2 = assembled fun _ => e.1 := by
  induction h with
  | refl x => exact ⟨h1, h2, h3⟩
  | @head x y z hs _ ih =>
    obtain ⟨s, todo, got⟩ := x
    unfold hitStep at hs
    cases todo with
    | nil => cases hs
    | cons k rest =>
      obtain ⟨v, hv, rfl⟩ := Option.map_eq_some_iff.1 hs
      obtain ⟨c1, c2, -⟩ := h1.lookup k
      refine ih c1 ?_ ?_
      · simpa using h2
      · intro e he
        simp only [List.mem_append, List.mem_singleton] at he
        rcases he with he | rfl
        · exact h3 e he
        · exact c2 v hv

/-- The new state depends on the free memory only through the comparison with the limit. -/
theorem insert_avail (m : Mode) (s : State K V) (k : K) (v : V) (a b : Nat)
    (hm : ∀ limit, m = .memory limit → (a < limit ↔ b < limit)) :
    insertPhase m s k v a = insertPhase m s k v b := by
  cases m with
  | memory l =>
    have : ∀ n, fullAfter (.memory l) n a = fullAfter (.memory l) n b := by
      intro n
      simp only [fullAfter]
      exact decide_eq_decide.2 (hm l rfl)
    simp only [insertPhase, this]
  | zero => rfl
  | unbounded => rfl
  | bounded n => rfl

theorem MpiInv.step {m : Mode} {env : (R → Nat) → Prop} (hm : ∀ a, env a → SameVerdict m a) {assembled : (R → K) → V} {calls : List K}
    [Nonempty R] {g g' : R → Proc K V} (h : MpiInv m assembled calls g)
    (hs : MpiStep m env assembled g g') : MpiInv m assembled calls g' := by
  obtain ⟨x, h1, h2, h3, hr⟩ := h
  cases hs with
  | hit r k rest s' v hw ht hl =>
    refine ⟨x, h1, h2, h3, fun r' => ?_⟩
    by_cases e : r' = r
    · subst e
      simp only [Function.update_self]
      refine ⟨(hr r').1.tail ?_, by simp⟩
      simp [hitStep, ht, hl]
    · simp only [Function.update_of_ne e]
      exact hr r'
  | miss r k rest s' hw ht hl =>
    refine ⟨x, h1, h2, h3, fun r' => ?_⟩
    by_cases e : r' = r
    · subst e
      have hsame := lookup_none m (g r').cache k (by rw [hl])
      rw [hl] at hsame
      simp only at hsame
      subst hsame
      simp only [Function.update_self]
      have := (hr r').1
      rw [ht] at this
      refine ⟨this, fun _ => ⟨by simp, ?_⟩⟩
      simp [hitStep, hl]
    · simp only [Function.update_of_ne e]
      exact hr r'
  | exchange keys avail new hw ha hi =>
    have r0 : R := Classical.arbitrary R
    have hall : ∀ r, ((g r).cache, (g r).todo, (g r).got) = ((g r0).cache, (g r0).todo, (g r0).got) :=
      fun r => (hr r).1.unique ((hr r).2 (hw r).1).2 (hr r0).1 ((hr r0).2 (hw r0).1).2
    have hc : ∀ r, (g r).cache = (g r0).cache := fun r => congrArg Prod.fst (hall r)
    have htodo : ∀ r, (g r).todo = (g r0).todo := fun r => congrArg (fun y => y.2.1) (hall r)
    have hgot : ∀ r, (g r).got = (g r0).got := fun r => congrArg (fun y => y.2.2) (hall r)
    have hkeys : keys = fun _ => keys r0 := by
      funext r
      have h5 := (hw r).2
      rw [htodo r, (hw r0).2] at h5
      exact (Option.some.inj h5).symm
    have hnew : ∀ r, new r = new r0 := by
      intro r
      have h5 := hi r
      have h6 := hi r0
      rw [hc r, insert_avail m _ _ _ _ (avail r0) fun l hl => hm avail ha l hl r r0] at h5
      have : keys r = keys r0 := by rw [hkeys]
      rw [this, h6] at h5
      exact (Option.some.inj h5).symm
    obtain ⟨i1, i2, i3⟩ := (hr r0).1.inv h1 h2 h3
    refine ⟨(new r0, (g r0).todo.tail, (g r0).got ++ [(keys r0, assembled keys)]), ?_, ?_, ?_, ?_⟩
    · obtain ⟨s', e1, e2, -⟩ := i1.insert (fun a b hab => by rw [id_eq, id_eq] at hab; rw [hab])
        (keys r0) (avail r0)
      have h6 := hi r0
      rw [hkeys] at h6
      simp only [id] at e1
      rw [e1] at h6
      rw [← Option.some.inj h6]
      exact e2
    · have hh := (hw r0).2
      cases ht : (g r0).todo with
      | nil => rw [ht] at hh; cases hh
      | cons k rest =>
        rw [ht] at hh i2
        have := Option.some.inj hh
        subst this
        simpa using i2
    · intro e he
      simp only [List.mem_append, List.mem_singleton] at he
      rcases he with he | rfl
      · exact i3 e he
      · simp only
        rw [hkeys]
    · intro r
      simp only
      have hk : keys r = keys r0 := by rw [hkeys]
      rw [hnew r, htodo r, hgot r, hk]
      exact ⟨.refl _, by simp⟩

theorem MpiInv.init (m : Mode) (assembled : (R → K) → V) (reqs : List K) :
    MpiInv m assembled (innerCalls reqs) (procsInit reqs) :=
  ⟨(State.init, innerCalls reqs, []), CInv.init m _ _, by simp, by simp,
    fun _ => ⟨.refl _, by simp [procsInit]⟩⟩

theorem MpiInv.run {m : Mode} {env : (R → Nat) → Prop} (hm : ∀ a, env a → SameVerdict m a) {assembled : (R → K) → V} {calls : List K}
    [Nonempty R] {n : Nat} {g g' : R → Proc K V} (h : MpiInv m assembled calls g)
    (hs : MpiRun m env assembled n g g') : MpiInv m assembled calls g' := by
  induction hs with
  | refl => exact h
  | tail _ hs ih => exact (ih h).step hm hs

/-- Two steps for each call to be made, one if it has been started. -/
def Proc.work (p : Proc K V) : Nat := 2 * p.todo.length - (if p.waiting then 1 else 0)

theorem sum_lt_of_update [Fintype R] (f : R → Nat) (r : R) (a : Nat) (h : a < f r) :
    (∑ x, if x = r then a else f x) < ∑ x, f x := by
  apply Finset.sum_lt_sum
  · intro i _
    by_cases e : i = r
    · subst e; rw [if_pos rfl]; exact h.le
    · rw [if_neg e]
  · exact ⟨r, Finset.mem_univ r, by rw [if_pos rfl]; exact h⟩

theorem work_decreases [Fintype R] [Nonempty R] {m : Mode} {env : (R → Nat) → Prop}
    {assembled : (R → K) → V}
    {g g' : R → Proc K V} (hs : MpiStep m env assembled g g') :
    (∑ r, (g' r).work) < ∑ r, (g r).work := by
  cases hs with
  | hit r k rest s' v hw ht hl =>
    refine lt_of_le_of_lt (le_of_eq ?_) (sum_lt_of_update (fun r => (g r).work) r (2 * rest.length) ?_)
    · apply Finset.sum_congr rfl
      intro x _
      by_cases e : x = r
      · subst e; simp [Proc.work]
      · simp [e]
    · simp [Proc.work, hw, ht]
  | miss r k rest s' hw ht hl =>
    refine lt_of_le_of_lt (le_of_eq ?_)
      (sum_lt_of_update (fun r => (g r).work) r (2 * (rest.length + 1) - 1) ?_)
    · apply Finset.sum_congr rfl
      intro x _
      by_cases e : x = r
      · subst e; simp [Proc.work]
      · simp [e]
    · simp only [Proc.work, hw, ht, List.length_cons]
      simp; omega
  | exchange keys avail new hw ha hi =>
    apply Finset.sum_lt_sum_of_nonempty Finset.univ_nonempty
    intro r _
    obtain ⟨h1, h2⟩ := hw r
    cases ht : (g r).todo with
    | nil => rw [ht] at h2; cases h2
    | cons k rest =>
      simp only [Proc.work, h1, ht, List.tail_cons, List.length_cons]
      simp; omega

/-! ## C99 -/

/-- Without memory limit there is no assumption on the free memory. -/
theorem C99_no_memory_limit (maxsize : Option Int) (avail : R → Nat) :
    SameVerdict (selectMode maxsize 0) avail := by
  intro l hl
  exfalso
  revert hl
  unfold selectMode
  simp only [ne_eq, not_true_eq_false, if_false]
  cases maxsize with
  | none => simp
  | some i => by_cases h : i = 0 <;> simp [h]

/-- C99 (partial). Any number of processes making the same requests, for caching settings `maxsize` and
`useMemoryUpTo`: whatever the order of events, no process ever waits in vain (something can happen until
all have finished), the program ends after a bounded number of steps, calls are completed in order, and
every result is the data assembled by all processes for that very request.  Missing: with a
memory-limited cache (`useMemoryUpTo ≠ 0`, the default) it is assumed here that the processes agree at
every exchange on whether there is too little memory (`C99_deadlock_refuted`,
`C99_mixed_data_refuted`). -/
theorem C99_mpi_partial [Fintype R] [Nonempty R] (maxsize : Option Int) (useMemoryUpTo : Nat)
    (assembled : (R → K) → V) (reqs : List K) (n : Nat) (g : R → Proc K V)
    (hrun : MpiRun (selectMode maxsize useMemoryUpTo) (SameVerdict (selectMode maxsize useMemoryUpTo))
      assembled n (procsInit reqs) g) :
    ¬ Deadlock (selectMode maxsize useMemoryUpTo) (SameVerdict (selectMode maxsize useMemoryUpTo))
      assembled g ∧
    n ≤ Fintype.card R * (4 * reqs.length) ∧
    ∀ r, (g r).got.map Prod.fst ++ (g r).todo = innerCalls reqs ∧
      ∀ e ∈ (g r).got, e.2 = assembled fun _ => e.1 := by
  generalize selectMode maxsize useMemoryUpTo = m at *
  have hinv := (MpiInv.init m assembled reqs).run (fun _ h => h) hrun
  refine ⟨?_, ?_, ?_⟩
  · rintro ⟨hnd, hstuck⟩
    obtain ⟨x, h1, h2, h3, hr⟩ := hinv
    -- every process waits, otherwise it could move or has finished
    have hw : ∀ r, (g r).waiting = true ∨ (g r).todo = [] := by
      intro r
      cases hwr : (g r).waiting with
      | true => exact .inl rfl
      | false =>
        right
        cases ht : (g r).todo with
        | nil => rfl
        | cons k rest =>
          cases hl : lookupPhase m (g r).cache k with
          | mk s' o =>
            cases o with
            | none => exact absurd (.miss g r k rest s' hwr ht hl) (hstuck _)
            | some v => exact absurd (.hit g r k rest s' v hwr ht hl) (hstuck _)
    have hend : ∀ r, hitStep m ((g r).cache, (g r).todo, (g r).got) = none := by
      intro r
      rcases hw r with h | h
      · exact ((hr r).2 h).2
      · simp [hitStep, h]
    unfold AllDone at hnd
    push Not at hnd
    obtain ⟨r0, hr0⟩ := hnd
    have hall : ∀ r, ((g r).cache, (g r).todo, (g r).got) = ((g r0).cache, (g r0).todo, (g r0).got) :=
      fun r => (hr r).1.unique (hend r) (hr r0).1 (hend r0)
    have htodo : ∀ r, (g r).todo = (g r0).todo := fun r => congrArg (fun y => y.2.1) (hall r)
    have hc : ∀ r, (g r).cache = (g r0).cache := fun r => congrArg Prod.fst (hall r)
    obtain ⟨k, rest, hk⟩ := List.exists_cons_of_ne_nil hr0
    obtain ⟨i1, -, -⟩ := (hr r0).1.inv h1 h2 h3
    obtain ⟨s', e1, -, -⟩ := i1.insert (fun a b hab => by rw [id_eq, id_eq] at hab; rw [hab]) k 0
    refine hstuck _ (.exchange g (fun _ => k) (fun _ => 0) (fun _ => s') (fun r => ⟨?_, ?_⟩)
      (fun _ _ _ _ => Iff.rfl) fun r => ?_)
    · rcases hw r with h | h
      · exact h
      · rw [htodo r] at h; exact absurd h hr0
    · rw [htodo r, hk]; rfl
    · rw [hc r]; exact e1
  · have hle : n + ∑ r, (g r).work ≤ ∑ r : R, (procsInit (V := V) reqs r).work := by
      clear hinv
      generalize procsInit (R := R) (V := V) reqs = g0 at *
      induction hrun with
      | refl => simp
      | tail _ hs ih => have := work_decreases hs; omega
    have hlen : (innerCalls reqs).length = 2 * reqs.length := by
      unfold innerCalls
      rw [List.length_flatMap]
      simp
      omega
    have hw0 : ∑ r : R, (procsInit (V := V) reqs r).work = Fintype.card R * (4 * reqs.length) := by
      rw [Finset.sum_congr rfl (g := fun _ : R => 4 * reqs.length)]
      · simp
      · intro r _
        simp only [Proc.work, procsInit, hlen]
        simp; omega
    omega
  · obtain ⟨x, h1, h2, h3, hr⟩ := hinv
    intro r
    obtain ⟨-, i2, i3⟩ := (hr r).1.inv h1 h2 h3
    exact ⟨i2, i3⟩

/-! ## Refutation for the memory-limited cache -/

/-- What happens next in a program of two processes. -/
inductive MpiEv where
  | go (r : Bool)
  | exchange (avail : Bool → Nat)

/-- Executes one event for two processes. -/
def mpiExec (m : Mode) (assembled : (Bool → K) → V) (g : Bool → Proc K V) :
    MpiEv → Option (Bool → Proc K V)
  | .go r =>
    if (g r).waiting then none else
    match (g r).todo with
    | [] => none
    | k :: rest =>
      match (lookupPhase m (g r).cache k).2 with
      | some v => some (Function.update g r
          ⟨(lookupPhase m (g r).cache k).1, rest, false, (g r).got ++ [(k, v)]⟩)
      | none => some (Function.update g r
          ⟨(lookupPhase m (g r).cache k).1, k :: rest, true, (g r).got⟩)
  | .exchange avail =>
    if (g false).waiting = true ∧ (g true).waiting = true then
      match (g false).todo, (g true).todo with
      | k0 :: _, k1 :: _ =>
        let keys := fun b : Bool => if b then k1 else k0
        match insertPhase m (g false).cache k0 (assembled keys) (avail false),
          insertPhase m (g true).cache k1 (assembled keys) (avail true) with
        | some s0, some s1 => some fun r => ⟨if r then s1 else s0, (g r).todo.tail, false,
            (g r).got ++ [(keys r, assembled keys)]⟩
        | _, _ => none
      | _, _ => none
    else none

theorem mpiExec_sound (m : Mode) (assembled : (Bool → K) → V) (g g' : Bool → Proc K V) (e : MpiEv)
    (h : mpiExec m assembled g e = some g') : MpiStep m (fun _ => True) assembled g g' := by
  cases e with
  | go r =>
    simp only [mpiExec] at h
    split at h
    · cases h
    · rename_i hw
      split at h
      · cases h
      · rename_i k rest ht
        have hw' : (g r).waiting = false := by simpa using hw
        split at h
        · rename_i v hv
          obtain rfl := Option.some.inj h
          exact .hit g r k rest _ v hw' ht (Prod.ext rfl hv)
        · rename_i hv
          obtain rfl := Option.some.inj h
          exact .miss g r k rest _ hw' ht (Prod.ext rfl hv)
  | exchange avail =>
    simp only [mpiExec] at h
    split at h
    · rename_i hw
      split at h
      · rename_i k0 t0 k1 t1 h0 h1
        split at h
        · rename_i s0 s1 i0 i1
          obtain rfl := Option.some.inj h
          refine .exchange g (fun b : Bool => if b then k1 else k0) avail
            (fun r => if r then s1 else s0) (fun r => ?_) trivial (fun r => ?_)
          · cases r
            · exact ⟨hw.1, by simp [h0]⟩
            · exact ⟨hw.2, by simp [h1]⟩
          · cases r
            · simpa using i0
            · simpa using i1
        · cases h
      · cases h
    · cases h

/-- Executes a list of events. -/
def mpiExecs (m : Mode) (assembled : (Bool → K) → V) : (Bool → Proc K V) → List MpiEv →
    Option (Bool → Proc K V)
  | g, [] => some g
  | g, e :: es => (mpiExec m assembled g e).bind fun g' => mpiExecs m assembled g' es

theorem mpiExecs_sound (m : Mode) (assembled : (Bool → K) → V) (es : List MpiEv)
    (g g' : Bool → Proc K V) (n : Nat) (g0 : Bool → Proc K V) (h0 : MpiRun m (fun _ => True) assembled n g0 g)
    (h : mpiExecs m assembled g es = some g') : MpiRun m (fun _ => True) assembled (n + es.length) g0 g' := by
  induction es generalizing g n with
  | nil => obtain rfl := Option.some.inj h; exact h0
  | cons e es ih =>
    obtain ⟨g1, h1, h2⟩ := Option.bind_eq_some_iff.1 h
    have := ih g1 (n + 1) (.tail h0 (mpiExec_sound m assembled g g1 e h1)) h2
    simpa [Nat.add_assoc, Nat.add_comm 1] using this

/-- Two requests: both processes evaluate, exchange, and take the second call from the cache. At the
first exchange process `false` sees no free memory, process `true` enough. -/
def mpiEvents : List MpiEv :=
  let avail : Bool → Nat := fun r => if r then 2 * 1024 ^ 3 else 0
  [.go false, .go true, .exchange avail, .go false, .go true,
   .go false, .go true, .exchange avail, .go false, .go true]

/-- The default settings, `initialize(2, 128, …)` in config.py:21-62 as called at import. -/
def defaultMode : Mode := selectMode (some 128) (2 * 1024 ^ 3)

/-- What two processes assemble: their shares, one after the other (read_fof.py:107-110).  A share is
represented by the catalogue it was read from. -/
def twoShares (keys : Bool → Nat) : Nat × Nat := (keys false, keys true)

/-- C99 is false with the default settings: two processes on nodes with different amounts of free
memory request the data of group catalogue 1, 2 and again 1.  Process `false` evicted catalogue 1 and
waits for the other process, which has the data in its cache and finishes without taking part. -/
theorem C99_deadlock_refuted :
    ∃ n, ∃ g : Bool → Proc Nat (Nat × Nat),
      MpiRun defaultMode (fun _ => True) twoShares n (procsInit [1, 2, 1]) g ∧
      Deadlock defaultMode (fun _ => True) twoShares g ∧ (g true).todo = [] ∧ (g false).todo = [1, 1] := by
  have h1 : (mpiExecs defaultMode twoShares (procsInit [1, 2, 1])
      (mpiEvents ++ [.go false, .go true, .go true])).map
      (fun g => ((g true).todo, (g false).todo, (g false).waiting)) = some ([], [1, 1], true) := by
    decide +kernel
  obtain ⟨g, hg, h2⟩ := Option.map_eq_some_iff.1 h1
  simp only [Prod.mk.injEq] at h2
  obtain ⟨ht, hf, hw⟩ := h2
  refine ⟨_, g, mpiExecs_sound _ _ _ _ g 0 _ (.refl _) hg, ⟨?_, ?_⟩, ht, hf⟩
  · intro h; have := h false; rw [hf] at this; cases this
  · intro g' hs
    cases hs with
    | hit r k rest s' v hw' ht' hl => cases r <;> simp_all
    | miss r k rest s' hw' ht' hl => cases r <;> simp_all
    | exchange keys avail new hw' ha hi => have := (hw' true).2; rw [ht] at this; cases this

/-- With a fourth request both processes are inside the inner function for different catalogues: what
is assembled, returned and cached as catalogue 1 by one and as catalogue 3 by the other process
consists of a share of catalogue 1 and a share of catalogue 3. -/
theorem C99_mixed_data_refuted :
    ∃ n, ∃ g : Bool → Proc Nat (Nat × Nat),
      MpiRun defaultMode (fun _ => True) twoShares n (procsInit [1, 2, 1, 3]) g ∧
      (1, (1, 3)) ∈ (g false).got ∧ (3, (1, 3)) ∈ (g true).got := by
  have h1 : (mpiExecs defaultMode twoShares (procsInit [1, 2, 1, 3])
      (mpiEvents ++ [.go false, .go true, .go true, .go true, .exchange fun _ => 0])).map
      (fun g => ((g false).got.getLast?, (g true).got.getLast?)) =
      some (some (1, (1, 3)), some (3, (1, 3))) := by decide +kernel
  obtain ⟨g, hg, h2⟩ := Option.map_eq_some_iff.1 h1
  simp only [Prod.mk.injEq] at h2
  exact ⟨_, g, mpiExecs_sound _ _ _ _ g 0 _ (.refl _) hg, List.mem_of_getLast? h2.1,
    List.mem_of_getLast? h2.2⟩

/-- Three requests with the unlimited cache run to the end. -/
example : (mpiExecs (selectMode none 0) twoShares
    (procsInit [1, 2, 1]) (mpiEvents ++ [.go true, .go false, .go true, .go false])).map
    (fun g => ((g true).todo, (g false).got.map Prod.snd)) =
    some ([], [(1, 1), (1, 1), (2, 2), (2, 2), (1, 1), (1, 1)]) := by decide +kernel

end Verif.Cache
