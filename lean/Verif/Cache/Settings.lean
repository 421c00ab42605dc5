import Verif.Cache.Props

/-!
# Caching settings (C103)

`updateCachingMaxGBs`, `updateCachingMaxSize` (`cosmic_profiles/common/config.py:71-86`) and a function
which is decorated at its first call (`cosmic_profiles/gadget/read_fof.py:135-138`,
`cosmic_profiles/gadget/gen_catalogues.pyx:92-95`, `cosmic_profiles/common/caching.py:269-272`).
-/

set_option linter.unusedSectionVars false

namespace Verif.Cache

variable {K V E A : Type} [DecidableEq K]

/-! ## Model -/

/-- A program: the settings `config.GBs` (simplification: a natural number) and `config.CACHE_MAXSIZE`, and
the decorated function, if it has been called before. -/
structure Prog (K V : Type) where
  gbs : Nat
  maxsize : Option Int
  inner : Option (Mode × State K V)

/-- What a user does: change settings or call the function. -/
inductive POp (A V E : Type) where
  | setGBs (gbs : Nat)
  | setMaxSize (maxsize : Option Int)
  | call (a : A) (o : Except E V) (avail : Nat)

/-- `np_cache_factory` reads the settings when it decorates, caching.py:271-272; this happens if the
function has no attribute `inner` yet. -/
def Prog.decorated (p : Prog K V) : Mode × State K V :=
  p.inner.getD (selectMode p.maxsize (p.gbs * 1024 ^ 3), State.init)

/-- One operation, and the outcome of a call together with the number of cached results. -/
def pstep (key : A → K) (p : Prog K V) : POp A V E → Prog K V × Option (Out V E × Nat)
  | .setGBs g => ({ p with gbs := g }, none)
  | .setMaxSize m => ({ p with maxsize := m }, none)
  | .call a o avail =>
    let d := p.decorated
    let r := call d.1 d.2 (key a) o avail
    ({ p with inner := some (d.1, r.1) }, some (r.2, (cacheInfo r.1).currsize))

/-- A history: final program and what was observed. -/
def prun (key : A → K) : Prog K V → List (POp A V E) → Prog K V × List (Option (Out V E × Nat))
  | p, [] => (p, [])
  | p, op :: ops =>
    let r := pstep key p op
    let rest := prun key r.1 ops
    (rest.1, r.2 :: rest.2)

/-- The program after importing the package, config.py:232. -/
def Prog.start : Prog K V := ⟨2, some 128, none⟩

/-! ## Specification -/

/-- The settings requested by a history: the last value given, or the default. -/
def wantedGBs : Nat → List (POp A V E) → Nat
  | g, [] => g
  | _, .setGBs g :: ops => wantedGBs g ops
  | g, _ :: ops => wantedGBs g ops

/-- The same for the number of entries. -/
def wantedMaxSize : Option Int → List (POp A V E) → Option Int
  | m, [] => m
  | _, .setMaxSize m :: ops => wantedMaxSize m ops
  | m, _ :: ops => wantedMaxSize m ops

/-- Is the operation a call of the decorated function? -/
def POp.isCall : POp A V E → Bool
  | .call .. => true
  | _ => false

/-! ## Theorems -/

theorem prun_append (key : A → K) (p : Prog K V) (h1 h2 : List (POp A V E)) :
    prun key p (h1 ++ h2) = ((prun key (prun key p h1).1 h2).1,
      (prun key p h1).2 ++ (prun key (prun key p h1).1 h2).2) := by
  induction h1 generalizing p with
  | nil => rfl
  | cons op h1 ih => simp only [List.cons_append, prun, ih]

theorem prun_settings (key : A → K) (p : Prog K V) (us : List (POp A V E))
    (hu : ∀ op ∈ us, op.isCall = false) :
    (prun key p us).1 = ⟨wantedGBs p.gbs us, wantedMaxSize p.maxsize us, p.inner⟩ := by
  induction us generalizing p with
  | nil => rfl
  | cons op us ih =>
    have ih' := fun q => ih q (fun x hx => hu x (List.mem_cons_of_mem _ hx))
    cases op with
    | call a o n => have := hu _ List.mem_cons_self; cases this
    | setGBs g => simp only [prun, pstep, ih', wantedGBs, wantedMaxSize]
    | setMaxSize m => simp only [prun, pstep, ih', wantedGBs, wantedMaxSize]

/-- The calls of a history as operations on a decorated function. -/
def asOps (calls : List (A × Except E V × Nat)) : List (Op A V E) := calls.map fun c => .call c.1 c.2.1 c.2.2
/-- The calls as operations of a program. -/
def asPOps (calls : List (A × Except E V × Nat)) : List (POp A V E) := calls.map fun c => .call c.1 c.2.1 c.2.2

theorem prun_calls (key : A → K) (p : Prog K V) (calls : List (A × Except E V × Nat)) :
    (prun key p (asPOps calls)).2 =
      (run p.decorated.1 key p.decorated.2 (asOps calls)).2.map fun x => x.1.map fun o => (o, x.2.currsize) := by
  induction calls generalizing p with
  | nil => rfl
  | cons c calls ih =>
    have := ih (pstep key p (.call c.1 c.2.1 c.2.2)).1
    simp only [asPOps, asOps] at this ⊢
    simp only [List.map_cons, prun, run, step, this]
    rfl

/-- C103 (partial). If the settings are changed before the first call only, the cache is one with the
settings wanted: what is observed in all following calls is what a cache with these settings shows
(the subject of C01–C07).  Missing: changes after the first call (`C103_no_effect_refuted`). -/
theorem C103_settings_partial (key : A → K) (us : List (POp A V E)) (hu : ∀ op ∈ us, op.isCall = false)
    (calls : List (A × Except E V × Nat)) :
    ((prun key (Prog.start : Prog K V) (us ++ asPOps calls)).2.drop us.length) =
      (run (selectMode (wantedMaxSize (some 128) us) (wantedGBs 2 us * 1024 ^ 3)) key (State.init : State K V)
        (asOps calls)).2.map fun x => x.1.map fun o => (o, x.2.currsize) := by
  have hlen : ∀ (p : Prog K V) (h : List (POp A V E)), (prun key p h).2.length = h.length := by
    intro p h
    induction h generalizing p with
    | nil => rfl
    | cons op h ih => simp [prun, ih]
  rw [prun_append, ← hlen (Prog.start : Prog K V) us, List.drop_left, prun_calls, prun_settings _ _ _ hu]
  rfl

/-- C103 (partial). In particular no more results are kept than wanted. -/
theorem C103_size_partial (key : A → K) (us : List (POp A V E)) (hu : ∀ op ∈ us, op.isCall = false)
    (calls : List (A × Except E V × Nat)) (n : Int) (hg : wantedGBs 2 us = 0)
    (hn : wantedMaxSize (some 128) us = some n) (hn1 : 1 ≤ n) (x : Option (Out V E × Nat))
    (hx : x ∈ (prun key (Prog.start : Prog K V) (us ++ asPOps calls)).2.drop us.length) :
    ∃ o k, x = some (o, k) ∧ (k : Int) ≤ n := by
  rw [C103_settings_partial key us hu, hg, hn, Nat.zero_mul] at hx
  have key' : ∀ (done todo : List (Op A V E)), (∀ op ∈ todo, ∃ a o av, op = .call a o av) →
      ∀ x ∈ (run (selectMode (some n) 0) key (run (selectMode (some n) 0) key (State.init : State K V) done).1 todo).2,
        ∃ o, x.1 = some o ∧ (x.2.currsize : Int) ≤ n := by
    intro done todo
    induction todo generalizing done with
    | nil => intro _ x hx; cases hx
    | cons op todo ih =>
      intro ht x hx
      have hone : (step (selectMode (some n) 0) key
          (run (selectMode (some n) 0) key (State.init : State K V) done).1 op).1 =
          (run (selectMode (some n) 0) key (State.init : State K V) (done ++ [op])).1 := by
        rw [run_append]; rfl
      simp only [run, List.mem_cons] at hx
      rcases hx with rfl | hx
      · obtain ⟨a, o, av, rfl⟩ := ht _ List.mem_cons_self
        refine ⟨_, rfl, ?_⟩
        rw [hone]
        have := (C02_size_bound n key (done ++ [Op.call a o av]) (K := K)).1
        unfold infoAfter at this
        change ((cacheInfo (run (selectMode (some n) 0) key (State.init : State K V)
          (done ++ [Op.call a o av])).1).currsize : Int) ≤ n
        omega
      · rw [hone] at hx
        exact ih (done ++ [op]) (fun y hy => ht y (List.mem_cons_of_mem _ hy)) x hx
  obtain ⟨y, hy, rfl⟩ := List.mem_map.1 hx
  obtain ⟨o, ho, hk⟩ := key' [] (asOps calls) (by
    intro op hop
    obtain ⟨c, -, rfl⟩ := List.mem_map.1 hop
    exact ⟨_, _, _, rfl⟩) y hy
  exact ⟨o, _, by rw [ho]; rfl, hk⟩

/-- C103 is false: after the first call, changes of the settings have no effect on anything that can be
observed. -/
theorem C103_no_effect_refuted (key : A → K) (h1 h2 : List (POp A V E)) (hc : ∃ op ∈ h1, op.isCall = true)
    (upd : POp A V E) (hu : upd.isCall = false) :
    (prun key (Prog.start : Prog K V) (h1 ++ upd :: h2)).2 =
      (prun key (Prog.start : Prog K V) h1).2 ++ none :: (prun key (Prog.start : Prog K V) (h1 ++ h2)).2.drop h1.length := by
  have hlen : ∀ (p : Prog K V) (h : List (POp A V E)), (prun key p h).2.length = h.length := by
    intro p h
    induction h generalizing p with
    | nil => rfl
    | cons op h ih => simp [prun, ih]
  have hinner : ∀ (h : List (POp A V E)) (p : Prog K V), (p.inner.isSome ∨ ∃ op ∈ h, op.isCall = true) →
      (prun key p h).1.inner.isSome = true := by
    intro h
    induction h with
    | nil =>
      intro p hp
      rcases hp with hp | ⟨x, hx, -⟩
      · exact hp
      · cases hx
    | cons op h ih =>
      intro p hp
      simp only [prun]
      apply ih
      cases op with
      | call a o n => left; rfl
      | setGBs g =>
        rcases hp with hp | ⟨x, hx, hx'⟩
        · exact .inl hp
        · rcases List.mem_cons.1 hx with rfl | hx
          · cases hx'
          · exact .inr ⟨x, hx, hx'⟩
      | setMaxSize g =>
        rcases hp with hp | ⟨x, hx, hx'⟩
        · exact .inl hp
        · rcases List.mem_cons.1 hx with rfl | hx
          · cases hx'
          · exact .inr ⟨x, hx, hx'⟩
  have hsame : ∀ (h : List (POp A V E)) (p q : Prog K V), p.inner.isSome = true → p.inner = q.inner →
      (prun key p h).2 = (prun key q h).2 := by
    intro h
    induction h with
    | nil => intros; rfl
    | cons op h ih =>
      intro p q hs hpq
      cases op with
      | setGBs g => exact congrArg (List.cons none) (ih ⟨g, p.maxsize, p.inner⟩ ⟨g, q.maxsize, q.inner⟩ hs hpq)
      | setMaxSize g => exact congrArg (List.cons none) (ih ⟨p.gbs, g, p.inner⟩ ⟨q.gbs, g, q.inner⟩ hs hpq)
      | call a o n =>
        have hd : p.decorated = q.decorated := by
          obtain ⟨d, hd⟩ := Option.isSome_iff_exists.1 hs
          unfold Prog.decorated
          rw [← hpq, hd]
          simp only [Option.getD_some]
        simp only [prun, pstep, hd]
        refine congrArg (List.cons _) (ih _ _ ?_ ?_)
        · simp only [Option.isSome_some]
        · simp only
  rw [prun_append, prun_append]
  simp only
  rw [← hlen (Prog.start : Prog K V) h1, List.drop_left]
  congr 1
  simp only [prun]
  have hi := hinner h1 Prog.start (.inr hc)
  cases upd with
  | call a o n => cases hu
  | setGBs g =>
    exact congrArg (List.cons none) (hsame h2 ⟨g, (prun key Prog.start h1).1.maxsize, _⟩ (prun key Prog.start h1).1 hi rfl)
  | setMaxSize m =>
    exact congrArg (List.cons none) (hsame h2 ⟨(prun key Prog.start h1).1.gbs, m, _⟩ (prun key Prog.start h1).1 hi rfl)

/-- Room for one result is asked for after the first call; the cache keeps two. -/
example : (prun id (Prog.start : Prog Nat Nat) [.call 1 (.ok 1) (3 * 1024 ^ 3), .setGBs 0, .setMaxSize (some 1),
    .call 2 (.ok 4 : Except String Nat) (3 * 1024 ^ 3)]).2 =
    [some (.ok 1 true, 1), none, none, some (.ok 4 true, 2)] := by decide +kernel

/-- Asked for before the first call, it keeps one. -/
example : (prun id (Prog.start : Prog Nat Nat) [.setGBs 0, .setMaxSize (some 1), .call 1 (.ok 1) (3 * 1024 ^ 3),
    .call 2 (.ok 4 : Except String Nat) (3 * 1024 ^ 3)]).2 =
    [none, none, some (.ok 1 true, 1), some (.ok 4 true, 1)] := by decide +kernel

end Verif.Cache
