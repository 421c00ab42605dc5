import Verif.Cache.Props

/-!
# The wrappers without a lock: counters with several threads (C149)

Model of the two wrappers of `lru_cache` which take no lock (`/repo/cosmic_profiles/common/caching.py:153-175`:
`maxsize == 0` and `maxsize is None`) and of `cache_clear` (lines 239-246), in steps between which the interpreter may switch threads:
dictionary operations are single steps (as Python guarantees), `hits += 1` and `misses += 1` are a load and a store, and
`hits = misses = 0` is two stores.  The two phases of the wrappers with a lock are single steps; they are treated by `crun` and C10.

Simplifications: the user function is deterministic up to failures (as in C01 and C10); `cache_clear` holds the lock, which does not
matter here, because nobody else but `cache_info` takes it.
-/

set_option linter.unusedSectionVars false

namespace Verif.Cache.Counters

variable {A K V : Type} [DecidableEq K]

/-- Where a thread is. -/
inductive At (A V : Type) where
  /-- not in a call -/
  | idle
  /-- caching.py:169 the result has been found, before `hits += 1` -/
  | hit (a : A) (v : V)
  /-- caching.py:170 `hits` has been loaded -/
  | hitLoaded (a : A) (v : V) (n : Nat)
  /-- caching.py:158 / 172 the user function is running -/
  | computing (a : A)
  /-- caching.py:172 it has returned -/
  | computed (a : A) (v : V)
  /-- caching.py:174 / 159 before `misses += 1` -/
  | stored (a : A) (v : V)
  /-- caching.py:174 / 159 `misses` has been loaded -/
  | missLoaded (a : A) (v : V) (n : Nat)
  /-- caching.py:245 in `cache_clear`, before `hits = 0` -/
  | clearing
  /-- caching.py:245 in `cache_clear`, before `misses = 0` -/
  | clearing2
deriving DecidableEq

/-- What a user sees: a call with argument `a` has returned `v` (`found`: from the cache), or the cache has been cleared. -/
inductive Seen (A V : Type) where
  | returned (a : A) (v : V) (found : Bool)
  | cleared
deriving DecidableEq

/-- Variables of the closure (caching.py:87-88), the threads, and what has happened. -/
structure Shared (A K V : Type) where
  cache : List (K × V)
  hits : Nat
  misses : Nat
  threads : Nat → At A V
  seen : List (Seen A V)

/-- The closure just after decoration, caching.py:87-88; no thread does anything. -/
def Shared.init : Shared A K V := ⟨[], 0, 0, fun _ => .idle, []⟩

/-- Steps of a thread: begin a call, begin `cache_clear`, continue, or the user function fails. -/
inductive Act (A : Type) where
  | call (a : A)
  | clear
  | next
  | fail

/-- Thread `t` proceeds to `x`. -/
def Shared.at (s : Shared A K V) (t : Nat) (x : At A V) : Shared A K V :=
  ⟨s.cache, s.hits, s.misses, Function.update s.threads t x, s.seen⟩

/-- The user sees something. -/
def Shared.see (s : Shared A K V) (x : Seen A V) : Shared A K V := ⟨s.cache, s.hits, s.misses, s.threads, s.seen ++ [x]⟩

/-- One step of thread `t` (caching.py:153-175, 239-246); `none`: impossible.  `caching = false` is the wrapper for
`maxsize == 0`, which stores nothing and looks nothing up. -/
def step (caching : Bool) (key : A → K) (f : A → V) (s : Shared A K V) (t : Nat) (x : Act A) : Option (Shared A K V) :=
  match s.threads t, x with
  | .idle, .call a =>
    match caching, aget s.cache (key a) with
    | true, some v => some (s.at t (.hit a v))
    | _, _ => some (s.at t (.computing a))
  | .hit a v, .next => some (s.at t (.hitLoaded a v s.hits))
  | .hitLoaded a v n, .next => some ((Shared.at ⟨s.cache, n + 1, s.misses, s.threads, s.seen⟩ t .idle).see (.returned a v true))
  | .computing a, .next => some (s.at t (.computed a (f a)))
  | .computing _, .fail => some (s.at t .idle)
  | .computed a v, .next =>
    some (Shared.at ⟨if caching then aset s.cache (key a) v else s.cache, s.hits, s.misses, s.threads, s.seen⟩ t (.stored a v))
  | .stored a v, .next => some (s.at t (.missLoaded a v s.misses))
  | .missLoaded a v n, .next => some ((Shared.at ⟨s.cache, s.hits, n + 1, s.threads, s.seen⟩ t .idle).see (.returned a v false))
  | .idle, .clear => some (Shared.at ⟨[], s.hits, s.misses, s.threads, s.seen⟩ t .clearing)
  | .clearing, .next => some (Shared.at ⟨s.cache, 0, s.misses, s.threads, s.seen⟩ t .clearing2)
  | .clearing2, .next => some ((Shared.at ⟨s.cache, s.hits, 0, s.threads, s.seen⟩ t .idle).see .cleared)
  | _, _ => none

/-- An execution: a list of (thread, step). -/
def exec (caching : Bool) (key : A → K) (f : A → V) : Shared A K V → List (Nat × Act A) → Option (Shared A K V)
  | s, [] => some s
  | s, (t, x) :: l => (step caching key f s t x).bind fun s' => exec caching key f s' l

/-! ## Specification -/

/-- Number of calls that have returned since the last clear, answered from the cache (`found`) or not. -/
def returnedSince (found : Bool) : List (Seen A V) → Nat :=
  List.foldl (fun n x => match x with
    | .cleared => 0
    | .returned _ _ b => if b = found then n + 1 else n) 0

/-- No two calls overlap: at every moment at most one thread is in a call. -/
def NoOverlap (caching : Bool) (key : A → K) (f : A → V) (l : List (Nat × Act A)) : Prop :=
  ∀ p, p <+: l → ∀ s, exec caching key f Shared.init p = some s → ∀ t t', s.threads t ≠ .idle → s.threads t' ≠ .idle → t = t'

/-! ## Proofs -/

theorem exec_append (caching : Bool) (key : A → K) (f : A → V) (l m : List (Nat × Act A)) (s : Shared A K V) :
    exec caching key f s (l ++ m) = (exec caching key f s l).bind fun s' => exec caching key f s' m := by
  induction l generalizing s with
  | nil => rfl
  | cons x l ih =>
    obtain ⟨t, x⟩ := x
    simp only [List.cons_append, exec]
    cases step caching key f s t x with
    | none => rfl
    | some s' => exact ih s'

/-- Induction over executions. -/
theorem exec_induct (caching : Bool) (key : A → K) (f : A → V) (P : List (Nat × Act A) → Shared A K V → Prop)
    (h0 : P [] Shared.init)
    (hstep : ∀ l s t x s', exec caching key f Shared.init l = some s → P l s → step caching key f s t x = some s' → P (l ++ [(t, x)]) s')
    (l : List (Nat × Act A)) (s : Shared A K V) (h : exec caching key f Shared.init l = some s) : P l s := by
  induction l using List.reverseRecOn generalizing s with
  | nil => obtain rfl := Option.some.inj h; exact h0
  | append_singleton l x ih =>
    obtain ⟨t, x⟩ := x
    rw [exec_append] at h
    obtain ⟨s1, h1, h2⟩ := Option.bind_eq_some_iff.1 h
    simp only [exec, Option.bind_eq_some_iff] at h2
    obtain ⟨s2, h2, h3⟩ := h2
    obtain rfl := Option.some.inj h3
    exact hstep l s1 t x _ h1 (ih s1 h1) h2

theorem returnedSince_append (b : Bool) (l : List (Seen A V)) (x : Seen A V) :
    returnedSince b (l ++ [x]) = match x with
      | .cleared => 0
      | .returned _ _ b' => if b' = b then returnedSince b l + 1 else returnedSince b l := by
  unfold returnedSince
  rw [List.foldl_append]
  cases x <;> rfl

/-- The possible steps. -/
theorem step_cases {caching : Bool} {key : A → K} {f : A → V} {s s' : Shared A K V} {t : Nat} {x : Act A}
    (h : step caching key f s t x = some s') :
    (∃ a v, s.threads t = .idle ∧ x = .call a ∧ caching = true ∧ aget s.cache (key a) = some v ∧ s' = s.at t (.hit a v)) ∨
    (∃ a, s.threads t = .idle ∧ x = .call a ∧ s' = s.at t (.computing a)) ∨
    (∃ a v, s.threads t = .hit a v ∧ x = .next ∧ s' = s.at t (.hitLoaded a v s.hits)) ∨
    (∃ a v n, s.threads t = .hitLoaded a v n ∧ x = .next ∧
      s' = (Shared.at ⟨s.cache, n + 1, s.misses, s.threads, s.seen⟩ t .idle).see (.returned a v true)) ∨
    (∃ a, s.threads t = .computing a ∧ x = .next ∧ s' = s.at t (.computed a (f a))) ∨
    (∃ a, s.threads t = .computing a ∧ x = .fail ∧ s' = s.at t .idle) ∨
    (∃ a v, s.threads t = .computed a v ∧ x = .next ∧
      s' = Shared.at ⟨if caching then aset s.cache (key a) v else s.cache, s.hits, s.misses, s.threads, s.seen⟩ t (.stored a v)) ∨
    (∃ a v, s.threads t = .stored a v ∧ x = .next ∧ s' = s.at t (.missLoaded a v s.misses)) ∨
    (∃ a v n, s.threads t = .missLoaded a v n ∧ x = .next ∧
      s' = (Shared.at ⟨s.cache, s.hits, n + 1, s.threads, s.seen⟩ t .idle).see (.returned a v false)) ∨
    (s.threads t = .idle ∧ x = .clear ∧ s' = Shared.at ⟨[], s.hits, s.misses, s.threads, s.seen⟩ t .clearing) ∨
    (s.threads t = .clearing ∧ x = .next ∧ s' = Shared.at ⟨s.cache, 0, s.misses, s.threads, s.seen⟩ t .clearing2) ∨
    (s.threads t = .clearing2 ∧ x = .next ∧
      s' = (Shared.at ⟨s.cache, s.hits, 0, s.threads, s.seen⟩ t .idle).see .cleared) := by
  unfold step at h
  cases ht : s.threads t <;> cases x <;> simp only [ht] at h <;> try (exfalso; simp at h; done)
  case idle.call a =>
    cases caching with
    | false => simp at h; exact .inr (.inl ⟨a, rfl, rfl, h.symm⟩)
    | true =>
      cases hg : aget s.cache (key a) with
      | none => simp [hg] at h; exact .inr (.inl ⟨a, rfl, rfl, h.symm⟩)
      | some v => simp [hg] at h; exact .inl ⟨a, v, rfl, rfl, rfl, hg, h.symm⟩
  all_goals (simp only [Option.some.injEq] at h; subst h; simp)

/-- The value a thread carries is the right one. -/
def AtOK (f : A → V) : At A V → Prop
  | .hit a v | .hitLoaded a v _ | .computed a v | .stored a v | .missLoaded a v _ => v = f a
  | _ => True

/-- The value a user has seen is the right one. -/
def SeenOK (f : A → V) : Seen A V → Prop
  | .returned a v _ => v = f a
  | .cleared => True

theorem mem_aset {d : List (K × V)} {k : K} {v : V} {k' : K} {v' : V} (h : (k', v') ∈ aset d k v) :
    (k' = k ∧ v' = v) ∨ (k', v') ∈ d := by
  induction d with
  | nil => simp [aset] at h; exact .inl h
  | cons p d ih =>
    obtain ⟨k1, v1⟩ := p
    unfold aset at h
    split at h
    · rcases List.mem_cons.1 h with h | h
      · simp at h; exact .inl h
      · exact .inr (List.mem_cons_of_mem _ h)
    · rcases List.mem_cons.1 h with h | h
      · exact .inr (h ▸ List.mem_cons_self)
      · rcases ih h with h | h
        · exact .inl h
        · exact .inr (List.mem_cons_of_mem _ h)

/-- **C149** Also without a lock, for any number of threads and any interleaving of the single steps of their calls and clears, every call
that returns has returned the right value, and no argument is stored twice. -/
theorem C149_values (caching : Bool) (key : A → K) (f : A → V) (hkey : ∀ a b, key a = key b → f a = f b)
    (l : List (Nat × Act A)) (s : Shared A K V) (h : exec caching key f Shared.init l = some s) :
    (∀ a v b, Seen.returned a v b ∈ s.seen → v = f a) ∧ (s.cache.map Prod.fst).Nodup := by
  suffices hP : (∀ k v, (k, v) ∈ s.cache → ∃ a, key a = k ∧ v = f a) ∧ (∀ t, AtOK f (s.threads t)) ∧ (∀ x ∈ s.seen, SeenOK f x) ∧
      (s.cache.map Prod.fst).Nodup from ⟨fun a v b hm => hP.2.2.1 _ hm, hP.2.2.2⟩
  refine exec_induct caching key f (fun _ s => (∀ k v, (k, v) ∈ s.cache → ∃ a, key a = k ∧ v = f a) ∧ (∀ t, AtOK f (s.threads t)) ∧
    (∀ x ∈ s.seen, SeenOK f x) ∧ (s.cache.map Prod.fst).Nodup) ?_ ?_ l s h
  · exact ⟨by simp [Shared.init], fun _ => trivial, by simp [Shared.init], by simp [Shared.init]⟩
  · rintro - s t x s' - ⟨h1, h2, h3, h4⟩ hs
    have hupd : ∀ y, AtOK f y → ∀ t', AtOK f (Function.update s.threads t y t') := by
      intro y hy t'
      by_cases ht : t' = t
      · subst ht; simpa using hy
      · rw [Function.update_of_ne ht]; exact h2 t'
    have hsee : ∀ y, SeenOK f y → ∀ x ∈ s.seen ++ [y], SeenOK f x := by
      intro y hy x hx
      rcases List.mem_append.1 hx with hx | hx
      · exact h3 x hx
      · simp at hx; exact hx ▸ hy
    have ht := h2 t
    rcases step_cases hs with ⟨a, v, e, -, -, hg, rfl⟩ | ⟨a, e, -, rfl⟩ | ⟨a, v, e, -, rfl⟩ | ⟨a, v, n, e, -, rfl⟩ | ⟨a, e, -, rfl⟩ |
      ⟨a, e, -, rfl⟩ | ⟨a, v, e, -, rfl⟩ | ⟨a, v, e, -, rfl⟩ | ⟨a, v, n, e, -, rfl⟩ | ⟨e, -, rfl⟩ | ⟨e, -, rfl⟩ | ⟨e, -, rfl⟩ <;>
      rw [e] at ht <;> simp only [Shared.at, Shared.see] <;>
      first
      | exact ⟨h1, hupd _ ht, h3, h4⟩
      | exact ⟨h1, hupd _ trivial, h3, h4⟩
      | exact ⟨h1, hupd _ rfl, h3, h4⟩
      | exact ⟨h1, hupd _ trivial, hsee _ ht, h4⟩
      | exact ⟨h1, hupd _ trivial, hsee _ trivial, h4⟩
      | skip
    · obtain ⟨b, hb, hv⟩ := h1 _ _ (aget_mem hg)
      exact ⟨h1, hupd _ (hv.trans (hkey _ _ hb)), h3, h4⟩
    · refine ⟨?_, hupd _ ht, h3, ?_⟩
      · intro k' v' hm
        split at hm
        · rcases mem_aset hm with ⟨rfl, rfl⟩ | hm
          · exact ⟨a, rfl, ht⟩
          · exact h1 _ _ hm
        · exact h1 _ _ hm
      · split
        · rw [aset_keys]
          split
          · exact h4
          · rename_i hk
            rw [List.nodup_append]
            refine ⟨h4, by simp, ?_⟩
            intro y hy z hz
            simp at hz
            exact fun hh => hk (hz ▸ hh ▸ hy)
        · exact h4
    · exact ⟨by simp, hupd _ trivial, h3, by simp⟩

/-- What a thread has loaded, and that it is not clearing. -/
def AtLE (h m : Nat) : At A V → Prop
  | .hitLoaded _ _ n => n ≤ h
  | .missLoaded _ _ n => n ≤ m
  | .clearing | .clearing2 => False
  | _ => True

theorem AtLE.mono {h m h' m' : Nat} (hh : h ≤ h') (hm : m ≤ m') {x : At A V} (hx : AtLE h m x) : AtLE h' m' x := by
  cases x <;> simp only [AtLE] at hx ⊢ <;> omega

/-- C149, what holds without a lock: as long as nobody clears the cache, `cache_info` never counts more calls than have returned, and it
counts at least one hit (miss) if one has returned. -/
theorem C149_bounds_partial (caching : Bool) (key : A → K) (f : A → V) (l : List (Nat × Act A))
    (hl : ∀ t, (t, Act.clear) ∉ l) (s : Shared A K V) (h : exec caching key f Shared.init l = some s) :
    s.hits ≤ returnedSince true s.seen ∧ s.misses ≤ returnedSince false s.seen ∧
    (0 < returnedSince true s.seen → 0 < s.hits) ∧ (0 < returnedSince false s.seen → 0 < s.misses) := by
  suffices hP : (∀ t, (t, Act.clear) ∉ l) → (∀ t, AtLE (returnedSince true s.seen) (returnedSince false s.seen) (s.threads t)) ∧
      s.hits ≤ returnedSince true s.seen ∧ s.misses ≤ returnedSince false s.seen ∧
      (0 < returnedSince true s.seen → 0 < s.hits) ∧ (0 < returnedSince false s.seen → 0 < s.misses) from (hP hl).2
  refine exec_induct caching key f (fun l s => (∀ t, (t, Act.clear) ∉ l) →
    (∀ t, AtLE (returnedSince true s.seen) (returnedSince false s.seen) (s.threads t)) ∧
      s.hits ≤ returnedSince true s.seen ∧ s.misses ≤ returnedSince false s.seen ∧
      (0 < returnedSince true s.seen → 0 < s.hits) ∧ (0 < returnedSince false s.seen → 0 < s.misses)) ?_ ?_ l s h
  · exact fun _ => ⟨fun _ => trivial, by simp [Shared.init], by simp [Shared.init], by simp [Shared.init, returnedSince],
      by simp [Shared.init, returnedSince]⟩
  · rintro l s t x s' - ih hs hl'
    obtain ⟨h1, h2, h3, h4, h5⟩ := ih fun t' hm => hl' t' (List.mem_append_left _ hm)
    have hx : x ≠ .clear := by
      rintro rfl
      exact hl' t (by simp)
    have hupd : ∀ (h m : Nat) y, returnedSince true s.seen ≤ h → returnedSince false s.seen ≤ m → AtLE h m y →
        ∀ t', AtLE h m (Function.update s.threads t y t') := by
      intro h m y hh hm hy t'
      by_cases ht : t' = t
      · subst ht; simpa using hy
      · rw [Function.update_of_ne ht]; exact (h1 t').mono hh hm
    have ht := h1 t
    rcases step_cases hs with ⟨a, v, e, -, -, hg, rfl⟩ | ⟨a, e, -, rfl⟩ | ⟨a, v, e, -, rfl⟩ | ⟨a, v, n, e, -, rfl⟩ | ⟨a, e, -, rfl⟩ |
      ⟨a, e, -, rfl⟩ | ⟨a, v, e, -, rfl⟩ | ⟨a, v, e, -, rfl⟩ | ⟨a, v, n, e, -, rfl⟩ | ⟨e, rfl, rfl⟩ | ⟨e, -, rfl⟩ | ⟨e, -, rfl⟩ <;>
      rw [e] at ht <;> simp only [Shared.at, Shared.see] <;> (try simp only [AtLE] at ht) <;>
      first
      | exact ht.elim
      | exact absurd rfl hx
      | exact ⟨hupd _ _ _ (Nat.le_refl _) (Nat.le_refl _) (by trivial), h2, h3, h4, h5⟩
      | exact ⟨hupd _ _ _ (Nat.le_refl _) (Nat.le_refl _) (by exact h2), h2, h3, h4, h5⟩
      | exact ⟨hupd _ _ _ (Nat.le_refl _) (Nat.le_refl _) (by exact h3), h2, h3, h4, h5⟩
      | (simp only [returnedSince_append]
         refine ⟨hupd _ _ _ (by simp) (by simp) trivial, ?_, ?_, ?_, ?_⟩ <;> simp <;> omega)

/-- The counters of a state in which the given thread is at `x` and all others are idle. -/
def Exact (s : Shared A K V) : At A V → Prop
  | .hitLoaded _ _ n => n = returnedSince true s.seen ∧ s.misses = returnedSince false s.seen
  | .missLoaded _ _ n => n = returnedSince false s.seen ∧ s.hits = returnedSince true s.seen
  | .clearing => True
  | .clearing2 => s.hits = 0
  | _ => s.hits = returnedSince true s.seen ∧ s.misses = returnedSince false s.seen

/-- C149, what holds without a lock: the statistics are exact whenever no call is under way, if calls do not overlap. -/
theorem C149_alone_partial (caching : Bool) (key : A → K) (f : A → V) (l : List (Nat × Act A)) (hl : NoOverlap caching key f l)
    (s : Shared A K V) (h : exec caching key f Shared.init l = some s) (hidle : ∀ t, s.threads t = .idle) :
    s.hits = returnedSince true s.seen ∧ s.misses = returnedSince false s.seen := by
  suffices hP : NoOverlap caching key f l → ∀ t, (∀ t', t' ≠ t → s.threads t' = .idle) → Exact s (s.threads t) by
    have := hP hl 0 fun t' _ => hidle t'
    rw [hidle] at this
    exact this
  refine exec_induct caching key f (fun l s => NoOverlap caching key f l → ∀ t, (∀ t', t' ≠ t → s.threads t' = .idle) →
    Exact s (s.threads t)) ?_ ?_ l s h
  · exact fun _ t _ => ⟨rfl, rfl⟩
  · intro l s t x s' hex ih hs hno t0 h0
    have ih' := ih fun p hp => hno p (hp.trans (List.prefix_append _ _))
    -- before the step all threads but `t` were idle
    have hoth : ∀ t', t' ≠ t → s.threads t' = .idle := by
      intro t' ht'
      by_contra hc
      have hnow : s'.threads t' = s.threads t' := by
        rcases step_cases hs with ⟨a, v, e, -, -, hg, rfl⟩ | ⟨a, e, -, rfl⟩ | ⟨a, v, e, -, rfl⟩ | ⟨a, v, n, e, -, rfl⟩ |
          ⟨a, e, -, rfl⟩ | ⟨a, e, -, rfl⟩ | ⟨a, v, e, -, rfl⟩ | ⟨a, v, e, -, rfl⟩ | ⟨a, v, n, e, -, rfl⟩ | ⟨e, -, rfl⟩ | ⟨e, -, rfl⟩ |
          ⟨e, -, rfl⟩ <;> simp [Shared.at, Shared.see, Function.update_of_ne ht']
      by_cases hti : s.threads t = .idle
      · have hnot : s'.threads t ≠ .idle := by
          rcases step_cases hs with ⟨a, v, e, -, -, hg, rfl⟩ | ⟨a, e, -, rfl⟩ | ⟨a, v, e, -, rfl⟩ | ⟨a, v, n, e, -, rfl⟩ |
            ⟨a, e, -, rfl⟩ | ⟨a, e, -, rfl⟩ | ⟨a, v, e, -, rfl⟩ | ⟨a, v, e, -, rfl⟩ | ⟨a, v, n, e, -, rfl⟩ | ⟨e, -, rfl⟩ | ⟨e, -, rfl⟩ |
            ⟨e, -, rfl⟩ <;> first | (simp [Shared.at]; done) | (rw [e] at hti; cases hti)
        have hex' : exec caching key f Shared.init (l ++ [(t, x)]) = some s' := by
          rw [exec_append, hex]
          simp [exec, hs]
        exact ht' (hno _ (List.prefix_refl _) s' hex' t' t (by rw [hnow]; exact hc) hnot)
      · exact ht' (hno l (List.prefix_append _ _) s hex t' t hc hti)
    have hE := ih' t hoth
    have key2 : Exact s' (s'.threads t) := by
      rcases step_cases hs with ⟨a, v, e, -, -, hg, rfl⟩ | ⟨a, e, -, rfl⟩ | ⟨a, v, e, -, rfl⟩ | ⟨a, v, n, e, -, rfl⟩ |
          ⟨a, e, -, rfl⟩ | ⟨a, e, -, rfl⟩ | ⟨a, v, e, -, rfl⟩ | ⟨a, v, e, -, rfl⟩ | ⟨a, v, n, e, -, rfl⟩ | ⟨e, -, rfl⟩ | ⟨e, -, rfl⟩ |
          ⟨e, -, rfl⟩ <;> rw [e] at hE <;> simp only [Exact, Shared.at, Shared.see, Function.update_self, returnedSince_append] at hE ⊢ <;>
        simp_all
    by_cases ht0 : t0 = t
    · subst ht0; exact key2
    · -- all threads are idle
      have hi : s'.threads t = .idle := h0 t (Ne.symm ht0)
      rw [hi] at key2
      have hi0 : s'.threads t0 = .idle := by
        have hnow : s'.threads t0 = s.threads t0 := by
          rcases step_cases hs with ⟨a, v, e, -, -, hg, rfl⟩ | ⟨a, e, -, rfl⟩ | ⟨a, v, e, -, rfl⟩ | ⟨a, v, n, e, -, rfl⟩ |
            ⟨a, e, -, rfl⟩ | ⟨a, e, -, rfl⟩ | ⟨a, v, e, -, rfl⟩ | ⟨a, v, e, -, rfl⟩ | ⟨a, v, n, e, -, rfl⟩ | ⟨e, -, rfl⟩ | ⟨e, -, rfl⟩ |
            ⟨e, -, rfl⟩ <;> simp [Shared.at, Shared.see, Function.update_of_ne ht0]
        rw [hnow]; exact hoth t0 ht0
      rw [hi0]
      exact key2

/-- The full property is false: two threads find the same result in the cache, both load 1 and both store 2: three calls have been
answered from the cache, `cache_info` counts two hits. -/
theorem C149_lost_refuted : ∃ (l : List (Nat × Act Nat)) (s : Shared Nat Nat Nat), exec true id id Shared.init l = some s ∧
    (∀ t, s.threads t = .idle) ∧ (∀ t, (t, Act.clear) ∉ l) ∧ returnedSince true s.seen = 3 ∧ s.hits = 2 ∧
    returnedSince false s.seen = 1 ∧ s.misses = 1 := by
  refine ⟨[(0, .call 7), (0, .next), (0, .next), (0, .next), (0, .next), (0, .call 7), (0, .next), (0, .next),
    (0, .call 7), (1, .call 7), (0, .next), (1, .next), (0, .next), (1, .next)], _, rfl, ?_, by simp, by decide, by decide, by decide,
    by decide⟩
  intro t
  by_cases h0 : t = 0
  · subst h0; decide
  by_cases h1 : t = 1
  · subst h1; decide
  simp [Shared.at, Shared.see, Shared.init, h0, h1]

/-- The same for the wrapper which does not cache. -/
theorem C149_lost_zero_refuted : ∃ (l : List (Nat × Act Nat)) (s : Shared Nat Nat Nat), exec false id id Shared.init l = some s ∧
    (∀ t, s.threads t = .idle) ∧ returnedSince false s.seen = 2 ∧ s.misses = 1 := by
  refine ⟨[(0, .call 7), (1, .call 8), (0, .next), (1, .next), (0, .next), (1, .next), (0, .next), (1, .next), (0, .next), (1, .next)],
    _, rfl, ?_, by decide, by decide⟩
  intro t
  by_cases h0 : t = 0
  · subst h0; decide
  by_cases h1 : t = 1
  · subst h1; decide
  simp [Shared.at, Shared.see, Shared.init, h0, h1]

/-- With `cache_clear`, the counters can also be too large: a call loads the number of hits, the cache is cleared, the call ends. -/
theorem C149_clear_refuted : ∃ (l : List (Nat × Act Nat)) (s : Shared Nat Nat Nat), exec true id id Shared.init l = some s ∧
    (∀ t, s.threads t = .idle) ∧ returnedSince true s.seen = 1 ∧ s.hits = 3 := by
  refine ⟨[(0, .call 7), (0, .next), (0, .next), (0, .next), (0, .next), (0, .call 7), (0, .next), (0, .next), (0, .call 7), (0, .next),
    (0, .next), (0, .call 7), (0, .next), (1, .clear), (1, .next), (1, .next), (0, .next)], _, rfl, ?_, by decide, by decide⟩
  intro t
  by_cases h0 : t = 0
  · subst h0; decide
  by_cases h1 : t = 1
  · subst h1; decide
  simp [Shared.at, Shared.see, Shared.init, h0, h1]

/-- C149: an execution with two threads whose calls do not overlap, one with a miss and one with a hit. -/
example : ∃ s : Shared Nat Nat Nat, exec true id id Shared.init [(0, .call 7), (0, .next), (0, .next), (0, .next), (0, .next),
      (1, .call 7), (1, .next), (1, .next)] = some s ∧ s.hits = 1 ∧ s.misses = 1 ∧
      s.seen = [.returned 7 7 false, .returned 7 7 true] :=
  ⟨_, rfl, by decide, by decide, by decide⟩

/-- Calls of a single thread do not overlap. -/
theorem noOverlap_single (caching : Bool) (key : A → K) (f : A → V) (l : List (Nat × Act A)) (t : Nat) (hl : ∀ x ∈ l, x.1 = t) :
    NoOverlap caching key f l := by
  intro p hp s hs
  have gen : (∀ x ∈ p, x.1 = t) → ∀ t', t' ≠ t → s.threads t' = .idle := by
    refine exec_induct caching key f (fun p s => (∀ x ∈ p, x.1 = t) → ∀ t', t' ≠ t → s.threads t' = .idle) (fun _ _ _ => rfl) ?_ p s hs
    rintro p s t1 x s' - ih hst hx t' ht'
    obtain rfl : t1 = t := hx (t1, x) (by simp)
    rw [← ih (fun y hy => hx y (List.mem_append_left _ hy)) t' ht']
    rcases step_cases hst with ⟨a, v, e, -, -, hg, rfl⟩ | ⟨a, e, -, rfl⟩ | ⟨a, v, e, -, rfl⟩ | ⟨a, v, n, e, -, rfl⟩ |
      ⟨a, e, -, rfl⟩ | ⟨a, e, -, rfl⟩ | ⟨a, v, e, -, rfl⟩ | ⟨a, v, e, -, rfl⟩ | ⟨a, v, n, e, -, rfl⟩ | ⟨e, -, rfl⟩ | ⟨e, -, rfl⟩ |
      ⟨e, -, rfl⟩ <;> simp [Shared.at, Shared.see, Function.update_of_ne ht']
  have h := gen fun x hx => hl x (hp.subset hx)
  intro t1 t2 h1 h2
  by_contra hne
  by_cases ht1 : t1 = t
  · exact h2 (h t2 fun e => hne (ht1.trans e.symm))
  · exact h1 (h t1 ht1)

end Verif.Cache.Counters
