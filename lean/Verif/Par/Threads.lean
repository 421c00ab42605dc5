import Mathlib.Logic.Function.Basic
import Mathlib.Data.List.Basic
import Mathlib.Data.List.Perm.Basic

/-!
# Parallel loops with per-thread scratch memory

`for p in prange(n, schedule='dynamic')` whose body works in scratch arrays indexed by
`omp_get_thread_num()` and stores its result in slot `p` of an output array.  A body is a list of
atomic steps; a step of iteration `p` on thread `t` reads and writes the scratch memory of `t` and slot
`p` only.  The threads' steps are interleaved arbitrarily, the iterations are handed out to any number
of threads in any order.
-/

namespace Verif.Par

variable {T P S R : Type} [DecidableEq T] [DecidableEq P]

/-- What a step does to the scratch memory of its thread and to its output slot. -/
abbrev Action (S R : Type) := S × R → S × R

/-- A step of iteration `iter` executed by thread `thread`. -/
structure Step (T P S R : Type) where
  thread : T
  iter : P
  act : Action S R

/-- Scratch memories of all threads and the output array. -/
structure Mem (T P S R : Type) where
  scratch : T → S
  out : P → R

/-- Effect of one step: the thread uses its own scratch memory and the output of its iteration. -/
def Step.apply (st : Step T P S R) (m : Mem T P S R) : Mem T P S R :=
  let r := st.act (m.scratch st.thread, m.out st.iter)
  ⟨Function.update m.scratch st.thread r.1, Function.update m.out st.iter r.2⟩

/-- Steps one after the other, in the order in which the threads get to them. -/
def runSteps (ws : List (Step T P S R)) (m : Mem T P S R) : Mem T P S R :=
  ws.foldl (fun m st => st.apply m) m

/-- The steps thread `t` performs for the iterations `ps` in this order. -/
def threadSteps (body : P → List (Action S R)) (t : T) (ps : List P) : List (Step T P S R) :=
  ps.flatMap fun p => (body p).map fun a => ⟨t, p, a⟩

/-- `ws` is an execution of the parallel loop over `iters`: thread `t` gets the iterations `sched t`,
every iteration is given to exactly one thread (once), and the steps of a thread occur in order. -/
structure Execution (body : P → List (Action S R)) (iters : List P) (ws : List (Step T P S R)) where
  sched : T → List P
  nodup : ∀ t, (sched t).Nodup
  owner : ∀ t t' p, p ∈ sched t → p ∈ sched t' → t = t'
  covers : ∀ p, p ∈ iters ↔ ∃ t, p ∈ sched t
  program : ∀ t, ws.filter (fun st => decide (st.thread = t)) = threadSteps body t (sched t)

/-- A thread is not affected by the others. -/
theorem runSteps_isolated (ws : List (Step T P S R)) (t : T) (own : P → Prop)
    (h1 : ∀ st ∈ ws, st.thread = t → own st.iter) (h2 : ∀ st ∈ ws, own st.iter → st.thread = t)
    (m m' : Mem T P S R) (hs : m.scratch t = m'.scratch t) (ho : ∀ p, own p → m.out p = m'.out p) :
    (runSteps ws m).scratch t =
        (runSteps (ws.filter fun st => decide (st.thread = t)) m').scratch t ∧
      ∀ p, own p → (runSteps ws m).out p =
        (runSteps (ws.filter fun st => decide (st.thread = t)) m').out p := by
  induction ws generalizing m m' with
  | nil => exact ⟨hs, ho⟩
  | cons st ws ih =>
    have h1' := fun s hs => h1 s (List.mem_cons_of_mem _ hs)
    have h2' := fun s hs => h2 s (List.mem_cons_of_mem _ hs)
    by_cases h : st.thread = t
    · rw [List.filter_cons_of_pos (by simpa using h)]
      have hown := h1 st (by simp) h
      apply ih h1' h2'
      · simp only [Step.apply, h, Function.update_self, hs, ho _ hown]
      · intro p hp
        simp only [Step.apply, h, hs, ho _ hown]
        by_cases hpi : p = st.iter
        · subst hpi; simp
        · rw [Function.update_of_ne hpi, Function.update_of_ne hpi, ho p hp]
    · rw [List.filter_cons_of_neg (by simpa using h)]
      apply ih h1' h2'
      · simp only [Step.apply]
        rw [Function.update_of_ne (Ne.symm h), hs]
      · intro p hp
        have hne : p ≠ st.iter := by
          rintro rfl
          exact h (h2 st (by simp) hp)
        simp only [Step.apply]
        rw [Function.update_of_ne hne, ho p hp]

/-- Sequential composition of the steps of a body. -/
def runBody (as : List (Action S R)) (x : S × R) : S × R := as.foldl (fun x a => a x) x

theorem runSteps_append (a b : List (Step T P S R)) (m : Mem T P S R) :
    runSteps (a ++ b) m = runSteps b (runSteps a m) := by
  simp [runSteps, List.foldl_append]

theorem runSteps_body (as : List (Action S R)) (t : T) (p : P) (m : Mem T P S R) :
    runSteps (as.map fun a => (⟨t, p, a⟩ : Step T P S R)) m =
      ⟨Function.update m.scratch t (runBody as (m.scratch t, m.out p)).1,
       Function.update m.out p (runBody as (m.scratch t, m.out p)).2⟩ := by
  induction as generalizing m with
  | nil => simp [runSteps, runBody]
  | cons a as ih =>
    have : runSteps ((a :: as).map fun a => (⟨t, p, a⟩ : Step T P S R)) m =
        runSteps (as.map fun a => (⟨t, p, a⟩ : Step T P S R)) ((⟨t, p, a⟩ : Step T P S R).apply m) :=
      rfl
    rw [this, ih]
    simp [Step.apply, runBody]

/-- If, started in any admissible scratch memory, each body leaves an admissible scratch memory and
the same result `f p`, then every execution of the parallel loop leaves `f p` in every slot `p` and
does not touch the other slots. -/
theorem execution_result (body : P → List (Action S R)) (iters : List P)
    (ws : List (Step T P S R)) (ex : Execution body iters ws) (m : Mem T P S R)
    (inv : S → Prop) (hinv : ∀ t, inv (m.scratch t)) (f : P → R)
    (hbody : ∀ p ∈ iters, ∀ s, inv s → inv (runBody (body p) (s, m.out p)).1 ∧
      (runBody (body p) (s, m.out p)).2 = f p) :
    (∀ p ∈ iters, (runSteps ws m).out p = f p) ∧
      ∀ p, p ∉ iters → (runSteps ws m).out p = m.out p := by
  have hthread : ∀ st ∈ ws, st.iter ∈ ex.sched st.thread := by
    intro st hst
    have : st ∈ ws.filter (fun s => decide (s.thread = st.thread)) := by simp [hst]
    rw [ex.program] at this
    simp only [threadSteps, List.mem_flatMap, List.mem_map] at this
    obtain ⟨p, hp, a, -, h⟩ := this
    have : st.iter = p := by rw [← h]
    rw [this]; exact hp
  constructor
  · intro p hp
    obtain ⟨t, ht⟩ := (ex.covers p).1 hp
    have iso := (runSteps_isolated ws t (fun p => p ∈ ex.sched t)
      (fun st hst h => by rw [← h]; exact hthread st hst)
      (fun st hst h => ex.owner _ _ _ (hthread st hst) h) m m rfl (fun _ _ => rfl)).2 p ht
    rw [iso, ex.program]
    have gen : ∀ (ps : List P), ps.Nodup → (∀ q ∈ ps, q ∈ iters) → ∀ (m' : Mem T P S R),
        inv (m'.scratch t) → (∀ q ∈ ps, m'.out q = m.out q) →
        (∀ q ∈ ps, (runSteps (threadSteps body t ps) m').out q = f q) ∧
        (∀ q, q ∉ ps → (runSteps (threadSteps body t ps) m').out q = m'.out q) := by
      intro ps
      induction ps with
      | nil => intro _ _ m' _ _; exact ⟨by simp, fun q _ => rfl⟩
      | cons q ps ih =>
        intro hnd hin m' hi ho
        have hsplit : threadSteps body t (q :: ps) =
            ((body q).map fun a => (⟨t, q, a⟩ : Step T P S R)) ++ threadSteps body t ps := rfl
        rw [hsplit, runSteps_append, runSteps_body]
        obtain ⟨b1, b2⟩ := hbody q (hin q (by simp)) (m'.scratch t) hi
        rw [ho q (by simp)]
        obtain ⟨hq, hps⟩ := List.nodup_cons.1 hnd
        obtain ⟨r1, r2⟩ := ih hps (fun q h => hin q (by simp [h]))
          ⟨Function.update m'.scratch t (runBody (body q) (m'.scratch t, m.out q)).1,
           Function.update m'.out q (runBody (body q) (m'.scratch t, m.out q)).2⟩
          (by simpa using b1) (by
            intro q' hq'
            have : q' ≠ q := by rintro rfl; exact hq hq'
            simp only [Function.update_of_ne this]
            exact ho q' (by simp [hq']))
        constructor
        · intro q' hq'
          rcases List.mem_cons.1 hq' with rfl | hq'
          · rw [r2 q' hq]; simpa using b2
          · exact r1 q' hq'
        · intro q' hq'
          simp only [List.mem_cons, not_or] at hq'
          rw [r2 q' hq'.2]
          simp [Function.update_of_ne hq'.1]
    exact (gen (ex.sched t) (ex.nodup t) (fun q hq => (ex.covers q).2 ⟨t, hq⟩) m (hinv t)
      (fun _ _ => rfl)).1 p ht
  · intro p hp
    have hno : ∀ st ∈ ws, st.iter ≠ p := by
      rintro st hst rfl
      exact hp ((ex.covers _).2 ⟨_, hthread st hst⟩)
    have key : ∀ (ws : List (Step T P S R)) (m : Mem T P S R), (∀ st ∈ ws, st.iter ≠ p) →
        (runSteps ws m).out p = m.out p := by
      intro ws
      induction ws with
      | nil => intro m _; rfl
      | cons st ws ih =>
        intro m h
        have e : runSteps (st :: ws) m = runSteps ws (st.apply m) := rfl
        rw [e, ih _ fun s hs => h s (by simp [hs])]
        simp only [Step.apply]
        rw [Function.update_of_ne (Ne.symm (h st (by simp)))]
    exact key ws m hno

/-- Running everything on one thread is an execution. -/
def Execution.oneThread (body : P → List (Action S R)) (iters : List P) (hn : iters.Nodup) (t : T) :
    Execution body iters (threadSteps body t iters) where
  sched := fun t' => if t' = t then iters else []
  nodup := by intro t'; by_cases h : t' = t <;> simp [h, hn]
  owner := by
    intro a b p ha hb
    by_cases h : a = t <;> by_cases h' : b = t <;> simp_all
  covers := by
    intro p
    constructor
    · intro h; exact ⟨t, by simpa using h⟩
    · rintro ⟨t', h⟩; by_cases h' : t' = t <;> simp_all
  program := by
    intro t'
    by_cases h : t' = t
    · subst h
      rw [List.filter_eq_self.2]
      · simp
      · intro st hst
        simp only [threadSteps, List.mem_flatMap, List.mem_map] at hst
        obtain ⟨p, -, a, -, rfl⟩ := hst
        simp
    · rw [List.filter_eq_nil_iff.2]
      · simp [h, threadSteps]
      · intro st hst
        simp only [threadSteps, List.mem_flatMap, List.mem_map] at hst
        obtain ⟨p, -, a, -, rfl⟩ := hst
        simpa using Ne.symm h

end Verif.Par
