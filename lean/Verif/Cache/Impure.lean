import Verif.Cache.Props

/-!
# Cached functions whose result changes (C147)

The cached functions of the package depend on more than their arguments: on files and on the unit system
(`cosmic_profiles/gadget/read_fof.py:74-76` reads `config`).  Here the user function may do anything at each
call.
-/

set_option linter.unusedSectionVars false

namespace Verif.Cache

variable {K V E A : Type} [DecidableEq K]

/-! ## Specification -/

/-- Record one observed operation: a clear forgets everything, a call in which the function was run
replaces what is known for its key. -/
def recordRun (key : A → K) (le : K → Option V) : Op A V E × Option (Out V E) → K → Option V
  | (.clear, _) => fun _ => none
  | (.call a _ _, some (.ok v true)) => fun k => if k = key a then some v else le k
  | _ => le

/-- The result of the last call since the last clear in which the function was run for key `k`. -/
def lastRun (key : A → K) (tr : Trace A V E) : K → Option V := tr.foldl (recordRun key) fun _ => none

/-! ## Proofs -/

/-- All entries are results of the last run for their key. -/
def Current (t : ACache K V) (le : K → Option V) : Prop := ∀ k v, (k, v) ∈ t.entries → le k = some v

theorem Current.lookup {m : Mode} {t : ACache K V} {le : K → Option V} (h : Current t le) (k : K) :
    Current (alookup m t k).1 le ∧ (∀ v, (alookup m t k).2 = some v → le k = some v) ∧
    ((alookup m t k).2 = none → (alookup m t k).1 = t ∧ (m = .zero ∨ aget t.entries k = none)) := by
  cases hg : aget t.entries k with
  | none => cases m <;> simp [alookup, hg, h]
  | some v =>
    have hv := h _ _ (aget_mem hg)
    have hmv : ∀ h' f', Current (⟨adel t.entries k ++ [(k, v)], h', t.misses, f'⟩ : ACache K V) le := by
      intro h' f' k' w hm
      simp at hm
      rcases hm with hm | ⟨rfl, rfl⟩
      · exact h k' w (mem_adel hm)
      · exact hv
    cases m with
    | zero => simp [alookup, h]
    | unbounded => simp only [alookup, hg]; exact ⟨h, by simp [hv], by simp⟩
    | memory l => simp only [alookup, hg]; exact ⟨hmv _ _, by simp [hv], by simp⟩
    | bounded n => simp only [alookup, hg]; exact ⟨hmv _ _, by simp [hv], by simp⟩

theorem Current.insert {m : Mode} {t : ACache K V} {le : K → Option V} (h : Current t le) (k : K) (v : V)
    (avail : Nat) (hz : m = .zero → t.entries = []) (hk : m = .zero ∨ aget t.entries k = none) :
    Current (ainsert m t k v avail) fun k' => if k' = k then some v else le k' := by
  by_cases hm : m = .zero
  · subst hm
    intro k' w hw
    simp [ainsert, hz rfl] at hw
  have hk0 := hk.resolve_left hm
  have hnot := (aget_none_iff _ _).1 hk0
  have hnew : ∀ es : List (K × V), (∀ x ∈ es, x ∈ t.entries ∨ x = (k, v)) → ∀ h' m' f',
      Current (⟨es, h', m', f'⟩ : ACache K V) fun k' => if k' = k then some v else le k' := by
    intro es hes h' m' f' k' w hw
    rcases hes _ hw with hw | hw
    · have : k' ≠ k := fun e => hnot (List.mem_map.2 ⟨_, hw, e⟩)
      simp only [if_neg this]
      exact h _ _ hw
    · simp at hw
      simp [hw.1, hw.2]
  cases m with
  | zero => exact absurd rfl hm
  | unbounded => exact hnew _ (fun x hx => mem_aset hx) _ _ _
  | memory l =>
    by_cases hf : t.full = true
    · have e : ainsert (.memory l) t k v avail = ⟨t.entries.tail ++ [(k, v)], t.hits, t.misses + 1, t.full⟩ := by
        simp [ainsert, hk0, hf]
      rw [e]
      exact hnew _ (fun x hx => by simp at hx; exact hx.imp (fun h => List.mem_of_mem_tail h) id) _ _ _
    · have e : ∃ f, ainsert (.memory l) t k v avail = ⟨t.entries ++ [(k, v)], t.hits, t.misses + 1, f⟩ := by
        simp [ainsert, hk0, hf]
      rw [e.choose_spec]
      exact hnew _ (fun x hx => by simpa using hx) _ _ _
  | bounded n =>
    by_cases hf : t.full = true
    · have e : ainsert (.bounded n) t k v avail = ⟨t.entries.tail ++ [(k, v)], t.hits, t.misses + 1, t.full⟩ := by
        simp [ainsert, hk0, hf]
      rw [e]
      exact hnew _ (fun x hx => by simp at hx; exact hx.imp (fun h => List.mem_of_mem_tail h) id) _ _ _
    · have e : ∃ f, ainsert (.bounded n) t k v avail = ⟨t.entries ++ [(k, v)], t.hits, t.misses + 1, f⟩ := by
        simp [ainsert, hk0, hf]
      rw [e.choose_spec]
      exact hnew _ (fun x hx => by simpa using hx) _ _ _

theorem zero_entries {key : A → K} (ops : List (Op A V E)) :
    (absAfter (K := K) .zero key ops).entries = [] := (rel_after .zero key ops).2.2.2

theorem current_after (m : Mode) (key : A → K) (ops : List (Op A V E)) :
    Current (absAfter m key ops) (lastRun key (trace m key ops)) := by
  induction ops using List.reverseRecOn with
  | nil => intro k v hm; simp [absAfter, arun, ACache.init] at hm
  | append_singleton ops op ih =>
    have hout := ((rel_after m key ops).step key op).2
    have hrec : lastRun key (trace m key (ops ++ [op])) =
        recordRun key (lastRun key (trace m key ops)) (op, (astep m key (absAfter m key ops) op).2) := by
      simp only [lastRun, trace_append_one, List.foldl_append, List.foldl_cons, List.foldl_nil, hout]
    have hst : absAfter m key (ops ++ [op]) = (astep m key (absAfter m key ops) op).1 :=
      arun_append_one m key _ ops op
    rw [hrec, hst]
    cases op with
    | clear => intro k v hm; simp [astep, aclear, ACache.init] at hm
    | call a o avail =>
      obtain ⟨h1, -, h3⟩ := ih.lookup (m := m) (key a)
      simp only [astep, acall]
      rcases hl : alookup m (absAfter m key ops) (key a) with ⟨t1, r⟩
      rw [hl] at h1 h3
      cases r with
      | some v => simpa [recordRun] using h1
      | none =>
        cases o with
        | error e => simpa [recordRun] using h1
        | ok v =>
          obtain ⟨h4, h5⟩ := h3 rfl
          simp only at h4
          subst h4
          simp only [recordRun]
          exact h1.insert (key a) v avail (fun hz => by subst hz; exact zero_entries ops) h5

/-- **C147** Whatever the function does at each of its calls: after every history, in every cache mode, a call with
argument `a` either runs the function and gives what it does now, or returns the result of the last run for the same
arguments since the last clear.  (`o` is what the function would do now.) -/
theorem C147_last_run (m : Mode) (key : A → K) (ops : List (Op A V E)) (a : A) (o : Except E V) (avail : Nat) :
    (∃ v, nextCall m key ops a o avail = .ok v false ∧ lastRun key (trace m key ops) (key a) = some v) ∨
    (∃ v, nextCall m key ops a o avail = .ok v true ∧ o = .ok v) ∨
    (∃ e, nextCall m key ops a o avail = .raised e ∧ o = .error e) := by
  unfold nextCall
  rw [((rel_after m key ops).call (key a) o avail).2]
  obtain ⟨-, h2, -⟩ := (current_after m key ops).lookup (m := m) (key a)
  simp only [acall]
  rcases hl : alookup m (absAfter m key ops) (key a) with ⟨t1, r⟩
  rw [hl] at h2
  cases r with
  | some v => exact .inl ⟨v, rfl, h2 v rfl⟩
  | none =>
    cases o with
    | error e => exact .inr (.inr ⟨e, rfl, rfl⟩)
    | ok v => exact .inr (.inl ⟨v, rfl, rfl⟩)

/-- **C147** Calling twice in a row, as `getFoFSHData` and `calcCSHIdxs` do, gives the same result both times unless the cache has size
zero, whatever the function would do the second time and however little memory there is. -/
theorem C147_twice (m : Mode) (hm : m ≠ .zero) (key : A → K) (ops : List (Op A V E)) (a : A) (o o' : Except E V)
    (avail avail' : Nat) (v : V) (b : Bool) (h : nextCall m key ops a o avail = .ok v b) :
    nextCall m key (ops ++ [.call a o avail]) a o' avail' = .ok v false := by
  unfold nextCall at h ⊢
  rw [run_append_one, ((rel_after m key ops).step key _).1.call (key a) o' avail' |>.2]
  rw [((rel_after m key ops).call (key a) o avail).2] at h
  simp only [astep]
  have happ : ∀ (d : List (K × V)) (k : K) (w : V), k ∉ d.map Prod.fst → aget (d ++ [(k, w)]) k = some w := by
    intro d k w
    induction d with
    | nil => simp [aget]
    | cons p d ih =>
      intro hn
      simp at hn ih ⊢
      simp [aget, Ne.symm hn.1, ih hn.2]
  have hit : ∀ t : ACache K V, aget t.entries (key a) = some v → (acall m t (key a) o' avail').2 = .ok v false := by
    intro t ht
    cases m <;> simp_all [acall, alookup]
  apply hit
  simp only [acall] at h ⊢
  obtain ⟨-, -, h3⟩ := (current_after m key ops).lookup (m := m) (key a)
  cases hg : aget (absAfter m key ops).entries (key a) with
  | none =>
    have hl : alookup m (absAfter m key ops) (key a) = (absAfter m key ops, none) := by
      cases m <;> simp [alookup, hg]
    rw [hl] at h ⊢
    cases o with
    | error e => simp at h
    | ok w =>
      simp only [Out.ok.injEq] at h
      obtain ⟨rfl, -⟩ := h
      have hnot := (aget_none_iff _ _).1 hg
      have hset : ∀ (d : List (K × V)), aget (aset d (key a) w) (key a) = some w := by
        intro d
        induction d with
        | nil => simp [aset, aget]
        | cons p d ih =>
          obtain ⟨k', v'⟩ := p
          by_cases hk : k' = key a
          · simp [aset, aget, hk]
          · simp [aset, aget, hk, ih]
      have htail : key a ∉ ((absAfter m key ops).entries.tail).map Prod.fst := fun hh => by
        obtain ⟨x, hx, he⟩ := List.mem_map.1 hh
        exact hnot (List.mem_map.2 ⟨x, List.mem_of_mem_tail hx, he⟩)
      cases m with
      | zero => exact absurd rfl hm
      | unbounded => simp [ainsert, hset]
      | memory l =>
        simp only [ainsert, hg]
        by_cases hf : (absAfter (.memory l) key ops).full = true
        · simp [hf, happ _ _ _ htail]
        · simp [hf, happ _ _ _ hnot]
      | bounded n =>
        simp only [ainsert, hg]
        by_cases hf : (absAfter (.bounded n) key ops).full = true
        · simp [hf, happ _ _ _ htail]
        · simp [hf, happ _ _ _ hnot]
  | some w =>
    have hcur := current_after m key ops
    have hw := hcur _ _ (aget_mem hg)
    have hmv : aget (adel (absAfter m key ops).entries (key a) ++ [(key a, w)]) (key a) = some w := by
      cases hx : aget (adel (absAfter m key ops).entries (key a) ++ [(key a, w)]) (key a) with
      | none => exact absurd ((aget_none_iff _ _).1 hx) (by simp)
      | some x =>
        have := aget_mem hx
        simp at this
        rcases this with h' | h'
        · have := hcur _ _ (mem_adel h')
          rw [this] at hw; exact hw
        · rw [h']
    cases m with
    | zero => exact absurd rfl hm
    | unbounded => simp only [alookup, hg] at h ⊢; simp at h; simp [h.1]
    | memory l => simp only [alookup, hg] at h ⊢; simp at h; simpa [h.1] using hmv
    | bounded n => simp only [alookup, hg] at h ⊢; simp at h; simpa [h.1] using hmv

/-- C147: the function gives 1, 2, 3, 4 in turn; a cache with one place.  The second call gives the first result, the third another
argument, the fourth is computed anew. -/
example : (run (.bounded 1) id (State.init : State Nat Nat)
      ([.call 7 (.ok 1) 0, .call 7 (.ok 2) 0, .call 8 (.ok 3) 0, .call 7 (.ok 4) 0] : List (Op Nat Nat String))).2.map Prod.fst =
      [some (.ok 1 true), some (.ok 1 false), some (.ok 3 true), some (.ok 4 true)] ∧
    lastRun id (trace (.bounded 1) id
      ([.call 7 (.ok 1) 0, .call 7 (.ok 2) 0] : List (Op Nat Nat String))) 7 = some 1 := by
  decide

end Verif.Cache

