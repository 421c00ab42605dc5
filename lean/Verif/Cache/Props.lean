import Verif.Cache.Concurrent

/-!
# Properties of the cache decorator (C01 - C07, C10)

Vocabulary of the statements: `Spec.lean` (`distinct`, `trace`, `usesOf`, `countSince`, `nextCall`,
`infoAfter`) and the small predicates defined here.
-/

set_option linter.unusedSectionVars false

namespace Verif.Cache

variable {K V E A : Type} [DecidableEq K]

/-! ## C01 -/

/-- What a transparent cache may answer to an operation: a call returns `f a`; it may only raise
the very exception that the user function raises in this call; nothing else can happen. -/
def Transparent (f : A → V) : Op A V E → Option (Out V E) → Prop
  | .call a _ _, some (.ok v _) => v = f a
  | .call _ (.error e) _, some (.raised e') => e' = e
  | .clear, none => True
  | _, _ => False

/-- **C01** Caching never changes a result: for every cache mode, every deterministic function
`f` (compatible with the cache key: arguments with equal keys have equal results) which may fail
at any call, and every history of calls and clears, each call returns `f a` (or raises what the
function raised). -/
theorem C01_cache_transparent (m : Mode) (key : A → K) (f : A → V)
    (hkey : ∀ a b, key a = key b → f a = f b) (ops : List (Op A V E))
    (hops : ∀ a o n, Op.call a o n ∈ ops → o = .ok (f a) ∨ ∃ e, o = .error e) :
    List.Forall₂ (fun op x => Transparent f op x.1) ops
      (run m key (State.init : State K V) ops).2 := by
  have gen : ∀ (t : ACache K V), AVals key f t →
      List.Forall₂ (fun op x => Transparent f op x.1) ops (arun m key t ops).2 := by
    induction ops with
    | nil => intro t _; exact .nil
    | cons op ops ih =>
      intro t ht
      have ih' := ih (fun a o n h => hops a o n (by simp [h]))
      cases op with
      | clear =>
        refine .cons trivial (ih' _ ?_)
        intro k v hm; simp [astep, aclear, ACache.init] at hm
      | call a o avail =>
        obtain ⟨hl1, hl2⟩ := ht.lookup (m := m) a
        have ho := hops a o avail (by simp)
        simp only [arun, astep]
        rcases hc : alookup m t (key a) with ⟨t1, r⟩
        rw [hc] at hl1 hl2
        simp only at hl1 hl2
        cases r with
        | some v =>
          simp only [acall, hc]
          exact .cons (by simpa [Transparent] using hl2 v rfl) (ih' _ hl1)
        | none =>
          rcases ho with rfl | ⟨e, rfl⟩
          · simp only [acall, hc]
            exact .cons rfl (ih' _ (hl1.insert hkey a avail))
          · simp only [acall, hc]
            exact .cons rfl (ih' _ hl1)
  have := gen ACache.init (by intro k v hm; simp [ACache.init] at hm)
  rwa [((Rel.init m).run key ops).2]

/-- The hypotheses of C01 are satisfiable by a non-trivial history (eviction, failure, clear). -/
example : let ops : List (Op Nat Nat String) :=
      [.call 1 (.ok 1) 0, .call 2 (.error "boom") 0, .call 3 (.ok 9) 0, .clear, .call 1 (.ok 1) 0]
    (∀ a o n, Op.call a o n ∈ ops → o = .ok (a * a) ∨ ∃ e, o = .error e) ∧
    (run (.bounded 1) id (State.init : State Nat Nat) ops).2.map Prod.fst =
      [some (.ok 1 true), some (.raised "boom"), some (.ok 9 true), none, some (.ok 1 true)] := by
  refine ⟨?_, by decide⟩
  intro a o n h
  simp at h
  rcases h with ⟨rfl, rfl, rfl⟩ | ⟨rfl, rfl, rfl⟩ | ⟨rfl, rfl, rfl⟩ | ⟨rfl, rfl, rfl⟩ <;> simp

/-! ## C02 -/

/-- **C02** A cache created with `maxsize = n` never reports more than `max n 1` entries, after any
history; with `n = 0` it stays empty. -/
theorem C02_size_bound (n : Int) (key : A → K) (ops : List (Op A V E)) :
    ((infoAfter (selectMode (some n) 0) key ops).currsize : Int) ≤ max n 1 ∧
    (n = 0 → (infoAfter (selectMode (some n) 0) key ops).currsize = 0) := by
  by_cases hn : n = 0
  · subst hn
    have hz : ∀ ops : List (Op A V E), (absAfter (K := K) .zero key ops).entries = [] := by
      intro ops
      have := (rel_after .zero key ops).2.2
      exact this.2
    have : (infoAfter (selectMode (some 0) 0) key ops).currsize = 0 := by
      simp [selectMode, infoAfter_eq, ainfo, hz]
    rw [this]; exact ⟨by omega, fun _ => rfl⟩
  · have e : selectMode (some n) 0 = .bounded n := by simp [selectMode, hn]
    rw [e, infoAfter_eq]
    refine ⟨?_, fun h => absurd h hn⟩
    have := congrArg List.length (bounded_recent n key ops)
    rw [recent_length, List.length_take] at this
    simp only [ainfo, this]
    omega

example : (infoAfter (V := Nat) (E := String) (selectMode (some 2) 0) (id : Nat → Nat)
    [.call 1 (.ok 1) 0, .call 2 (.ok 4) 0, .call 3 (.ok 9) 0]).currsize = 2 := by decide

/-! ## C03 -/

/-- **C03** Least-recently-used eviction.  For `maxsize = n ≠ 0` and after any history, a call is
answered from the cache exactly if its argument is among the `max n 1` most recently used distinct
arguments (successful calls since the last clear).  In particular when a new argument arrives at
a full cache only the least recently used one is forgotten. -/
theorem C03_lru (n : Int) (hn : n ≠ 0) (key : A → K) (ops : List (Op A V E)) (a : A)
    (o : Except E V) (avail : Nat) :
    ((nextCall (selectMode (some n) 0) key ops a o avail).isHit = true ↔
      key a ∈ (distinct (usesOf key (trace (selectMode (some n) 0) key ops))).take (max n 1).toNat) ∧
    (infoAfter (selectMode (some n) 0) key ops).currsize =
      ((distinct (usesOf key (trace (selectMode (some n) 0) key ops))).take (max n 1).toNat).length := by
  have e : selectMode (some n) 0 = .bounded n := by simp [selectMode, hn]
  rw [e]
  obtain ⟨c, h, -⟩ := bounded_after n key ops
  refine ⟨?_, ?_⟩
  · rw [nextCall_hit_iff rfl key ops h, bounded_recent]
  · rw [← bounded_recent, recent_length, infoAfter_eq]; rfl

/-- Uses 1,2,1,3 with room for two: 2 is forgotten, 1 (older insertion, newer use) is kept. -/
example : let ops : List (Op Nat Nat String) :=
      [.call 1 (.ok 1) 0, .call 2 (.ok 4) 0, .call 1 (.ok 1) 0, .call 3 (.ok 9) 0]
    usesOf id (trace (selectMode (some 2) 0) (id : Nat → Nat) ops) = [3, 1, 2, 1] ∧
    (nextCall (selectMode (some 2) 0) id ops 1 (.ok 1) 0).isHit = true ∧
    (nextCall (selectMode (some 2) 0) id ops 2 (.ok 4) 0).isHit = false := by decide

/-! ## C04 -/

/-- **C04** Statistics: for every wrapper and history, `hits` (`misses`) is the number of
successful calls since the last clear that were (were not) answered from the cache. Hence
hits + misses is the number of successful calls since the last clear. -/
theorem C04_counters (m : Mode) (key : A → K) (ops : List (Op A V E)) :
    (infoAfter m key ops).hits = countSince Out.isHit (trace m key ops) ∧
    (infoAfter m key ops).misses = countSince Out.isMiss (trace m key ops) ∧
    (infoAfter m key ops).hits + (infoAfter m key ops).misses
      = (usesOf key (trace m key ops)).length := by
  induction ops using List.reverseRecOn with
  | nil => exact ⟨rfl, rfl, rfl⟩
  | append_singleton ops op ih =>
    obtain ⟨ih1, ih2, ih3⟩ := ih
    rw [infoAfter_eq] at ih1 ih2 ih3
    have hrel := rel_after m key ops
    have eA : absAfter m key (ops ++ [op]) = (astep m key (absAfter m key ops) op).1 :=
      arun_append_one m key ACache.init ops op
    have eC : ∀ p : Out V E → Bool, countSince p (trace m key (ops ++ [op])) =
        (match (op, (step m key (run m key (State.init : State K V) ops).1 op).2) with
          | (.clear, _) => 0
          | (.call _ _ _, some o) => if p o then countSince p (trace m key ops) + 1
              else countSince p (trace m key ops)
          | _ => countSince p (trace m key ops)) := by
      intro p
      rw [trace_append_one, countSince, List.foldl_append]
      rfl
    have eU : usesOf key (trace m key (ops ++ [op])) =
        recordUse key (usesOf key (trace m key ops))
          (op, (step m key (run m key (State.init : State K V) ops).1 op).2) := by
      rw [trace_append_one, usesOf, List.foldl_append]; rfl
    rw [infoAfter_eq, eA, eC, eC, eU]
    cases op with
    | clear => exact ⟨rfl, rfl, rfl⟩
    | call a o avail =>
      have hout := (hrel.call (key a) o avail).2
      obtain ⟨c1, c2⟩ := acall_counters m (absAfter m key ops) (key a) o avail
      simp only [step, hout]
      simp only [ainfo, astep] at ih1 ih2 ih3 ⊢
      rw [c1, c2, ← ih1, ← ih2]
      cases hr : (acall m (absAfter m key ops) (key a) o avail).2 with
      | ok v b =>
        cases b <;> simp only [Out.isHit, Out.isMiss, recordUse, List.length_cons, if_true,
          Bool.false_eq_true, if_false, ← ih3] <;> clear c1 c2 ih1 ih2 ih3 <;>
          refine ⟨?_, ?_, ?_⟩ <;> first | trivial | omega
      | raised e => simp [Out.isHit, Out.isMiss, recordUse, ← ih3]
      | keyError => simp [Out.isHit, Out.isMiss, recordUse, ← ih3]

/-- **C04** (unbounded cache) a call is a hit exactly if its argument was used since the last
clear. -/
theorem C04_unbounded_hit (key : A → K) (ops : List (Op A V E)) (a : A) (o : Except E V)
    (avail : Nat) :
    (nextCall (selectMode none 0) key ops a o avail).isHit = true ↔
      key a ∈ usesOf key (trace (selectMode none 0) key ops) := by
  have e : selectMode none 0 = .unbounded := by simp [selectMode]
  rw [e]
  have hmem : ∀ k, k ∈ (absAfter (K := K) .unbounded key ops).entries.map Prod.fst ↔
      k ∈ usesOf key (trace .unbounded key ops) := by
    induction ops using List.reverseRecOn with
    | nil => intro k; exact Iff.rfl
    | append_singleton ops op ih =>
      intro k
      have eA : absAfter (K := K) .unbounded key (ops ++ [op]) =
          (astep .unbounded key (absAfter .unbounded key ops) op).1 :=
        arun_append_one .unbounded key ACache.init ops op
      have eU : usesOf key (trace .unbounded key (ops ++ [op])) =
          recordUse key (usesOf key (trace .unbounded key ops))
            (op, (step .unbounded key (run .unbounded key (State.init : State K V) ops).1 op).2) := by
        rw [trace_append_one, usesOf, List.foldl_append]; rfl
      rw [eA, eU]
      cases op with
      | clear => simp [astep, aclear, ACache.init, recordUse]
      | call a' o' avail' =>
        have hout := ((rel_after .unbounded key ops).call (key a') o' avail').2
        simp only [step, hout, astep]
        cases hg : aget (absAfter (K := K) .unbounded key ops).entries (key a') with
        | some v =>
          have : key a' ∈ (absAfter (K := K) .unbounded key ops).entries.map Prod.fst := by
            by_contra hh; rw [← aget_none_iff, hg] at hh; simp at hh
          simp only [acall, alookup, hg, recordUse, List.mem_cons]
          rw [ih k]
          constructor
          · exact Or.inr
          · rintro (rfl | h)
            · exact (ih _).1 this
            · exact h
        | none =>
          cases o' with
          | error e => simpa [acall, alookup, hg, recordUse] using ih k
          | ok v =>
            simp only [acall, alookup, hg, recordUse, List.mem_cons, ainsert]
            rw [← ih k]
            have hs : ∀ d : List (K × V), k ∈ (aset d (key a') v).map Prod.fst ↔
                k = key a' ∨ k ∈ d.map Prod.fst := by
              intro d
              induction d with
              | nil => simp [aset]
              | cons p d ihd =>
                obtain ⟨k', v'⟩ := p
                by_cases hk : k' = key a'
                · simp only [aset, hk, if_true, List.map_cons, List.mem_cons]; tauto
                · simp only [aset, hk, if_false, List.map_cons, List.mem_cons, ihd]; tauto
            exact hs _
  unfold nextCall
  rw [((rel_after .unbounded key ops).call (key a) o avail).2, ← hmem]
  cases hg : aget (absAfter (K := K) .unbounded key ops).entries (key a) with
  | none =>
    have := (aget_none_iff _ _).1 hg
    cases o <;> simp only [acall, alookup, hg, Out.isHit, Bool.false_eq_true, false_iff] <;> exact this
  | some v =>
    have : key a ∈ (absAfter (K := K) .unbounded key ops).entries.map Prod.fst := by
      by_contra hh; rw [← aget_none_iff, hg] at hh; simp at hh
    simp only [acall, alookup, hg, Out.isHit, true_iff]
    exact this

example : let ops : List (Op Nat Nat String) :=
      [.call 1 (.ok 1) 0, .clear, .call 1 (.ok 1) 0, .call 1 (.ok 1) 0, .call 2 (.error "x") 0]
    infoAfter (K := Nat) .unbounded id ops = ⟨1, 1, 1⟩ := by decide

/-! ## C05 -/

/-- **C05** A failing call is invisible: if the call in the middle of a history raises, then its
exception is the function's own, the statistics do not move, and every later operation observes
exactly what it observes in the history without the failing call. -/
theorem C05_failure_invisible (m : Mode) (key : A → K) (h1 h2 : List (Op A V E)) (a : A)
    (o : Except E V) (avail : Nat) (e : E)
    (hfail : nextCall (K := K) m key h1 a o avail = .raised e) :
    o = .error e ∧
    (run m key (State.init : State K V) (h1 ++ .call a o avail :: h2)).2 =
      (run m key (State.init : State K V) h1).2 ++
      (some (.raised e), infoAfter (K := K) m key h1) ::
      ((run m key (State.init : State K V) (h1 ++ h2)).2.drop h1.length) := by
  have hs : call m (run m key (State.init : State K V) h1).1 (key a) o avail
      = ((run m key (State.init : State K V) h1).1, .raised e) ∧ o = .error e := by
    unfold nextCall at hfail
    generalize (run m key (State.init : State K V) h1).1 = s at *
    have hl : (lookupPhase m s (key a)).2 = none → (lookupPhase m s (key a)).1 = s := by
      cases m <;> simp only [lookupPhase] <;> (repeat' split) <;> simp_all
    unfold call at hfail ⊢
    rcases hc : lookupPhase m s (key a) with ⟨s1, r⟩
    rw [hc] at hfail hl
    cases r with
    | some v => simp at hfail
    | none =>
      have := hl rfl
      simp only at this
      subst this
      cases o with
      | error e' => simp at hfail ⊢; exact hfail
      | ok v =>
        simp only at hfail
        cases hi : insertPhase m s1 (key a) v avail <;> simp [hi] at hfail
  obtain ⟨hs, ho⟩ := hs
  refine ⟨ho, ?_⟩
  rw [run_append, run_append]
  simp only [run, step, hs]
  rw [List.drop_left' (run_length ..)]
  rfl

example : nextCall (K := Nat) (.bounded 1) id ([.call 1 (.ok 1) 0] : List (Op Nat Nat String)) 2
    (.error "boom") 0 = .raised "boom" := by decide

/-! ## C06 -/

/-- **C06** After `cache_clear()` the cache is observably a new one: results, exceptions and
statistics of any later history are those of a freshly decorated function. -/
theorem C06_clear_fresh (m : Mode) (key : A → K) (h1 h2 : List (Op A V E)) :
    (run m key (State.init : State K V) (h1 ++ .clear :: h2)).2 =
      (run m key (State.init : State K V) h1).2 ++ (none, ⟨0, 0, 0⟩) ::
      (run m key (State.init : State K V) h2).2 := by
  rw [run_append]
  simp only [run, step]
  have hrel : Rel m (cacheClear (run m key (State.init : State K V) h1).1) ACache.init :=
    (rel_after m key h1).clear
  rw [(hrel.run key h2).2, ((Rel.init m).run key h2).2, hrel.info]
  rfl

example : let h1 : List (Op Nat Nat String) := [.call 1 (.ok 1) 0, .call 2 (.ok 4) 0]
    (run (.bounded 1) id (State.init : State Nat Nat) (h1 ++ .clear :: [.call 2 (.ok 4) 0])).2 =
    [(some (.ok 1 true), ⟨0, 1, 1⟩), (some (.ok 4 true), ⟨0, 2, 1⟩), (none, ⟨0, 0, 0⟩),
      (some (.ok 4 true), ⟨0, 1, 1⟩)] := by decide

/-! ## C07 -/

/-- **C07** (before the limit) With a memory limit, as long as no call has seen free memory below
the limit nothing is ever evicted: a call is a hit exactly if its argument was used since the last
clear, and all distinct arguments are stored. -/
theorem C07_no_eviction_before_limit (limit : Nat) (hl : limit ≠ 0) (ms : Option Int) (key : A → K)
    (ops : List (Op A V E)) (hav : ∀ a o n, Op.call a o n ∈ ops → limit ≤ n)
    (a : A) (o : Except E V) (avail : Nat) :
    ((nextCall (selectMode ms limit) key ops a o avail).isHit = true ↔
      key a ∈ usesOf key (trace (selectMode ms limit) key ops)) ∧
    (infoAfter (selectMode ms limit) key ops).currsize =
      (distinct (usesOf key (trace (selectMode ms limit) key ops))).length := by
  have e : selectMode ms limit = .memory limit := by simp [selectMode, hl]
  rw [e]
  have := link_induction (m := .memory limit) rfl key (fun _ c => c = none) (fun n => limit ≤ n)
    (fun _ _ _ _ h => h) ?_ [] ops (fun _ => rfl) hav ⟨none, LInv.init, rfl⟩
  · obtain ⟨c, h, rfl⟩ := this
    simp only [List.nil_append] at h
    refine ⟨?_, ?_⟩
    · rw [nextCall_hit_iff rfl key ops h, h.2, mem_distinct]
    · rw [← h.2, recent_length, infoAfter_eq]; rfl
  · rintro us c k n rfl _ hn
    simp only [capAfter, fullAfter, Nat.not_lt.2 hn, decide_false, Bool.false_eq_true, if_false]

/-- **C07** (after the limit) Once a new argument was stored while free memory was below the limit,
the number `N` of entries stays constant until the next clear, and exactly the `N` most recently
used distinct arguments are remembered. -/
theorem C07_constant_after_limit (limit : Nat) (hl : limit ≠ 0) (ms : Option Int) (key : A → K)
    (h1 h2 : List (Op A V E)) (a0 : A) (o0 : Except E V) (avail0 : Nat) (hlow : avail0 < limit)
    (hmiss : (nextCall (K := K) (selectMode ms limit) key h1 a0 o0 avail0).isMiss = true)
    (hnc : Op.clear ∉ h2) (a : A) (o : Except E V) (avail : Nat) :
    let N := (infoAfter (K := K) (selectMode ms limit) key (h1 ++ [.call a0 o0 avail0])).currsize
    let ops := (h1 ++ [.call a0 o0 avail0]) ++ h2
    0 < N ∧ (infoAfter (K := K) (selectMode ms limit) key ops).currsize = N ∧
    ((nextCall (selectMode ms limit) key ops a o avail).isHit = true ↔
      key a ∈ (distinct (usesOf key (trace (selectMode ms limit) key ops))).take N) := by
  have e : selectMode ms limit = .memory limit := by simp [selectMode, hl]
  rw [e] at hmiss ⊢
  intro N ops
  -- the state after the critical call is full
  have hbase : ∃ c, LInv (absAfter (K := K) (.memory limit) key (h1 ++ [.call a0 o0 avail0]))
      (usesOf key (trace (.memory limit) key (h1 ++ [.call a0 o0 avail0]))) c ∧
      c = some N := by
    obtain ⟨c, hL, -⟩ := link_induction (m := .memory limit) rfl key (fun _ _ => True) (fun _ => True)
      (fun _ _ _ _ h => h) (fun _ _ _ _ _ _ _ => trivial) [] h1 (fun _ => trivial)
      (fun _ _ _ _ => trivial) ⟨none, LInv.init, trivial⟩
    simp only [List.nil_append] at hL
    have hnot : key a0 ∉ recent (absAfter (K := K) (.memory limit) key h1) := by
      intro hk
      have := (nextCall_hit_iff rfl key h1 hL a0 o0 avail0).2 hk
      revert hmiss this
      cases nextCall (K := K) (.memory limit) key h1 a0 o0 avail0 with
      | ok v b => cases b <;> simp [Out.isHit, Out.isMiss]
      | raised e => simp [Out.isMiss]
      | keyError => simp [Out.isMiss]
    have hrel := rel_after (K := K) (.memory limit) key h1
    have hout := (hrel.call (key a0) o0 avail0).2
    obtain ⟨-, l2, l3⟩ := acall_link (m := .memory limit) rfl hL (key a0) o0 avail0
    obtain ⟨v, rfl⟩ : ∃ v, o0 = .ok v := by
      cases o0 with
      | ok v => exact ⟨v, rfl⟩
      | error e => simp [nextCall, hout, l2 hnot e rfl, Out.isMiss] at hmiss
    obtain ⟨h3, h4⟩ := l3 hnot v rfl
    have eA : absAfter (K := K) (.memory limit) key (h1 ++ [.call a0 (.ok v) avail0]) =
        (acall (E := E) (.memory limit) (absAfter (.memory limit) key h1) (key a0) (.ok v) avail0).1 := by
      exact arun_append_one (.memory limit) key ACache.init h1 _
    have eU : usesOf key (trace (.memory limit) key (h1 ++ [.call a0 (.ok v) avail0])) =
        key a0 :: usesOf key (trace (.memory limit) key h1) := by
      rw [trace_append_one, usesOf, List.foldl_append]
      simp [step, hout, h3, recordUse, usesOf]
    have hc : ∃ M, capAfter (.memory limit)
        ((distinct (usesOf key (trace (.memory limit) key h1))).length + 1) avail0 c = some M := by
      cases c with
      | some M => exact ⟨M, rfl⟩
      | none => simp [capAfter, fullAfter, hlow]
    obtain ⟨M, hM⟩ := hc
    rw [hM] at h4
    refine ⟨some M, by rw [eA, eU]; exact h4, ?_⟩
    have : N = M := by
      show (infoAfter (K := K) (.memory limit) key (h1 ++ [.call a0 (.ok v) avail0])).currsize = M
      rw [infoAfter_eq, eA]
      have := congrArg List.length h4.2.2.2
      rw [recent_length, List.length_take, Nat.min_eq_left h4.2.2.1] at this
      exact this
    rw [this]
  have := link_induction (m := .memory limit) rfl key (fun _ c => c = some N) (fun _ => True)
    (fun _ _ _ _ h => h) ?_ (h1 ++ [.call a0 o0 avail0]) h2 (fun h => absurd h hnc)
    (fun _ _ _ _ => trivial) hbase
  · obtain ⟨c, h, rfl⟩ := this
    refine ⟨h.2.1, ?_, ?_⟩
    · rw [infoAfter_eq]
      have := congrArg List.length h.2.2.2
      rw [recent_length, List.length_take, Nat.min_eq_left h.2.2.1] at this
      exact this
    · rw [nextCall_hit_iff rfl key ops h, h.2.2.2]
  · rintro us c k n rfl _ _; rfl

/-- limit 100: two insertions above the limit, a third below it; afterwards 1 is replaced. -/
example : let h1 : List (Op Nat Nat String) := [.call 1 (.ok 1) 500, .call 2 (.ok 4) 400]
    (nextCall (K := Nat) (selectMode none 100) id h1 3 (.ok 9) 50).isMiss = true ∧
    (infoAfter (K := Nat) (selectMode none 100) id (h1 ++ [.call 3 (.ok 9) 50, .call 4 (.ok 16) 50])).currsize = 3 ∧
    (nextCall (K := Nat) (selectMode none 100) id (h1 ++ [.call 3 (.ok 9) 50, .call 4 (.ok 16) 50]) 1 (.ok 1) 50).isHit
      = false := by decide

/-! ## C10 -/

/-- Admissible answers in a concurrent execution: whatever ends with an event has the right value. -/
def EventOK (f : A → V) : Event A E → Option (A × Out V E) → Prop
  | .start _ a, some (a', .ok v false) => a' = a ∧ v = f a
  | .start _ _, none => True
  | .finish _ none _, some (a, .ok v true) => v = f a
  | .finish _ (some e) _, some (_, .raised e') => e' = e
  | .finish _ _ _, none => True
  | .clear, none => True
  | _, _ => False

/-- Successful calls since the last clear in a concurrent execution. -/
def completedSince : List (Event A E × Option (A × Out V E)) → Nat :=
  List.foldl (fun n x => match x with
    | (.clear, _) => 0
    | (_, some (_, .ok _ _)) => n + 1
    | _ => n) 0

/-- **C10** Concurrent callers.  For every wrapper, any number of threads and any interleaving of
the first and second phases of their calls, of failures and of clears:
every call that ends has the right value (or its own exception), no argument is stored twice, the
size limit holds, and hits + misses counts the successful calls since the last clear. -/
theorem C10_concurrent_safe (m : Mode) (key : A → K) (f : A → V)
    (hkey : ∀ a b, key a = key b → f a = f b) (evs : List (Event A E)) :
    let r := crun m key f (⟨State.init, []⟩ : CState A K V) evs
    List.Forall₂ (fun ev x => EventOK f ev x.1) evs r.2 ∧
    (r.1.st.cache.map Prod.fst).Nodup ∧
    (∀ n, m = .bounded n → ((cacheInfo r.1.st).currsize : Int) ≤ max n 1) ∧
    (cacheInfo r.1.st).hits + (cacheInfo r.1.st).misses =
      completedSince (evs.zip (r.2.map Prod.fst)) := by
  have hstep : ∀ (c : CState A K V) (ev : Event A E), CInv m key f c.st →
      CInv m key f (cstep m key f c ev).1.st ∧ EventOK f ev (cstep m key f c ev).2 ∧
      (cstep m key f c ev).1.st.hits + (cstep m key f c ev).1.st.misses =
        (match (ev, (cstep m key f c ev).2) with
          | (.clear, _) => 0
          | (_, some (_, .ok _ _)) => c.st.hits + c.st.misses + 1
          | _ => c.st.hits + c.st.misses) := by
    intro c ev hc
    cases ev with
    | clear => exact ⟨hc.clear, trivial, rfl⟩
    | start t a =>
      obtain ⟨l1, l2, l3⟩ := hc.lookup a
      simp only [cstep]
      rcases hl : lookupPhase m c.st (key a) with ⟨s1, r⟩
      rw [hl] at l1 l2 l3
      cases r with
      | some v => exact ⟨l1, ⟨rfl, l2 v rfl⟩, by simpa using l3⟩
      | none => exact ⟨l1, trivial, by simpa using l3⟩
    | finish t fail avail =>
      simp only [cstep]
      cases hp : pendingOf c.pending t with
      | none => cases fail <;> exact ⟨hc, trivial, rfl⟩
      | some a =>
        cases fail with
        | some e => exact ⟨hc, rfl, rfl⟩
        | none =>
          obtain ⟨s', i1, i2, i3⟩ := hc.insert hkey a avail
          simp only [i1]
          exact ⟨i2, rfl, i3⟩
  have gen : ∀ (evs : List (Event A E)) (c : CState A K V), CInv m key f c.st →
      List.Forall₂ (fun ev x => EventOK f ev x.1) evs (crun m key f c evs).2 ∧
      CInv m key f (crun m key f c evs).1.st ∧
      (crun m key f c evs).1.st.hits + (crun m key f c evs).1.st.misses =
        List.foldl (fun n x => match x with
          | (.clear, _) => 0
          | (_, some (_, .ok _ _)) => n + 1
          | _ => n) (c.st.hits + c.st.misses) (evs.zip ((crun m key f c evs).2.map Prod.fst)) := by
    intro evs
    induction evs with
    | nil => intro c hc; exact ⟨.nil, hc, rfl⟩
    | cons ev evs ih =>
      intro c hc
      obtain ⟨h1, h2, h3⟩ := hstep c ev hc
      obtain ⟨i1, i2, i3⟩ := ih _ h1
      refine ⟨.cons h2 i1, i2, ?_⟩
      simp only [crun, List.map_cons, List.zip_cons_cons, List.foldl_cons]
      rw [i3, h3]
  obtain ⟨g1, ⟨t, g2, g3, g4, g5⟩, g6⟩ := gen evs ⟨State.init, []⟩ (CInv.init m key f)
  refine ⟨g1, ?_, ?_, g6⟩
  · have hm := g2.2.2
    cases m with
    | zero => rw [hm.1]; simp
    | unbounded =>
      simp only at hm
      rw [hm]
      have : (asVals t.entries).map Prod.fst = t.entries.map Prod.fst := by
        simp [asVals, Function.comp_def]
      rw [this]; exact g4
    | memory l => obtain ⟨_, _, as, hr⟩ := hm; exact hr.dictNodup
    | bounded n => obtain ⟨_, _, as, hr⟩ := hm; exact hr.dictNodup
  · intro n hn
    rw [g2.info]
    exact (g5 n hn).1

/-- Two threads race on the same argument and a third evicts it; all get the right values. -/
example : let evs : List (Event Nat String) :=
      [.start 0 5, .start 1 5, .finish 1 none 0, .start 2 7, .finish 2 none 0, .finish 0 none 0]
    (crun (.bounded 1) (id : Nat → Nat) (fun n => n * n) ⟨State.init, []⟩ evs).2.map Prod.fst =
      [none, none, some (5, .ok 25 true), none, some (7, .ok 49 true), some (5, .ok 25 true)] ∧
    (cacheInfo (crun (.bounded 1) (id : Nat → Nat) (fun n => n * n) ⟨State.init, []⟩ evs).1.st) = ⟨0, 3, 1⟩ := by
  decide

/-! ### Whose call ends -/

/-- The unfinished calls of thread `t` in a concurrent execution, newest first, read off the events and
their outcomes: a call which starts and does not end at once is under way until the thread finishes it. -/
def openCalls (t : Nat) : List (Event A E × Option (A × Out V E)) → List A :=
  List.foldl (fun st x => match x with
    | (.start t' a, none) => if t' = t then a :: st else st
    | (.finish t' _ _, _) => if t' = t then st.tail else st
    | _ => st) []

/-- Arguments of the calls of thread `t` that are under way. -/
def pendingArgs (p : Pending A) (t : Nat) : List A := (p.filter fun x => decide (x.1 = t)).map Prod.snd

theorem pendingOf_eq (p : Pending A) (t : Nat) : pendingOf p t = (pendingArgs p t).head? := by
  induction p with
  | nil => rfl
  | cons x p ih =>
    obtain ⟨t', a⟩ := x
    by_cases h : t' = t
    · simp [pendingOf, pendingArgs, h]
    · simpa [pendingOf, pendingArgs, h] using ih

theorem pendingArgs_drop (p : Pending A) (t t' : Nat) :
    pendingArgs (pendingDrop p t) t' = if t = t' then (pendingArgs p t').tail else pendingArgs p t' := by
  induction p with
  | nil => simp [pendingDrop, pendingArgs]
  | cons x p ih =>
    obtain ⟨u, a⟩ := x
    by_cases h : u = t
    · subst h
      by_cases h' : u = t'
      · subst h'; simp [pendingDrop, pendingArgs]
      · simp [pendingDrop, pendingArgs, h']
    · by_cases h' : u = t'
      · subst h'
        simp only [pendingDrop, h, if_false]
        simp only [pendingArgs, List.filter_cons, decide_true, if_true, List.map_cons] at ih ⊢
        rw [if_neg (Ne.symm h)] at ih ⊢
        rw [ih]
      · simp only [pendingDrop, h, if_false]
        simpa [pendingArgs, h'] using ih

/-- **C10** Every caller gets the answer to its own call: whatever happened before, a call that ends for
thread `t` is the one this thread started last and has not ended yet (and if there is none, nothing ends). -/
theorem C10_own_call (m : Mode) (key : A → K) (f : A → V) (evs : List (Event A E)) (t : Nat)
    (fail : Option E) (avail : Nat) :
    let r := crun m key f (⟨State.init, []⟩ : CState A K V) evs
    ((cstep m key f r.1 (.finish t fail avail)).2.map Prod.fst) =
      (openCalls t (evs.zip (r.2.map Prod.fst))).head? := by
  have hfin : ∀ c : CState A K V, ((cstep m key f c (.finish t fail avail)).2.map Prod.fst) =
      (pendingArgs c.pending t).head? := by
    intro c
    rw [← pendingOf_eq]
    simp only [cstep]
    cases pendingOf c.pending t with
    | none => rfl
    | some a => cases fail with
      | some e => rfl
      | none => dsimp only; cases insertPhase m c.st (key a) (f a) avail <;> rfl
  have gen : ∀ (evs : List (Event A E)) (c : CState A K V),
      pendingArgs (crun m key f c evs).1.pending t =
        List.foldl (fun st x => match x with
          | (.start t' a, none) => if t' = t then a :: st else st
          | (.finish t' _ _, _) => if t' = t then st.tail else st
          | _ => st) (pendingArgs c.pending t) (evs.zip ((crun m key f c evs).2.map Prod.fst)) := by
    intro evs
    induction evs with
    | nil => intro c; rfl
    | cons ev evs ih =>
      intro c
      simp only [crun, List.map_cons, List.zip_cons_cons, List.foldl_cons]
      rw [ih]
      congr 1
      cases ev with
      | clear => rfl
      | start t' a =>
        simp only [cstep]
        rcases lookupPhase m c.st (key a) with ⟨s1, o⟩
        cases o with
        | some v => rfl
        | none => by_cases h : t' = t <;> simp [pendingArgs, h]
      | finish t' fl av =>
        have hp : (cstep m key f c (.finish t' fl av)).1.pending = pendingDrop c.pending t' := by
          simp only [cstep]
          cases hq : pendingOf c.pending t' with
          | none =>
            dsimp only
            generalize c.pending = p at hq
            induction p with
            | nil => rfl
            | cons x p ih2 =>
              obtain ⟨u, b⟩ := x
              by_cases hu : u = t'
              · simp [pendingOf, hu] at hq
              · simp only [pendingOf, hu, if_false] at hq
                simp only [pendingDrop, hu, if_false]
                rw [← ih2 hq]
          | some a => cases fl with
            | some e => rfl
            | none => dsimp only; cases insertPhase m c.st (key a) (f a) av <;> rfl
        rw [hp, pendingArgs_drop]
  intro r
  rw [hfin, gen]
  rfl

/- Two threads interleaved: each ends its own call. -/
example :
    let r := crun (E := Unit) (.bounded 3) (fun a : Nat => a) (fun a => a * a) (⟨State.init, []⟩ : CState Nat Nat Nat)
      [.start 0 7, .start 1 8]
    (cstep (E := Unit) (.bounded 3) (fun a : Nat => a) (fun a => a * a) r.1 (.finish 0 none 0)).2 = some (7, .ok 49 true) := by
  decide

end Verif.Cache
