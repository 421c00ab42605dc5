import Mathlib.Logic.Function.Basic
import Mathlib.Data.List.Basic

/-!
# Parallel loops (`cython.parallel.prange`)

A parallel loop runs its iterations on any number of threads with any schedule.  An iteration is the
list of the writes it performs to shared memory, in program order (all reads are from memory which
the loop does not write).  An execution is any interleaving of the iterations' writes: this covers
all thread counts, all assignments of iterations to threads and all relative speeds.
Memory is sequentially consistent; loop-local variables are private to an iteration.
-/

set_option linter.unusedSectionVars false

namespace Verif.Par

variable {L V : Type} [DecidableEq L]

/-- Shared memory after performing writes in order. -/
def exec (m : L → V) : List (L × V) → L → V
  | [] => m
  | (l, v) :: ws => exec (Function.update m l v) ws

/-- `Interleaving its ws`: `ws` is a merge of the write lists `its` of the iterations, keeping the
order inside every iteration. -/
inductive Interleaving : List (List (L × V)) → List (L × V) → Prop
  | done (its : List (List (L × V))) (h : ∀ x ∈ its, x = []) : Interleaving its []
  | step (its : List (List (L × V))) (i : Nat) (x : L × V) (rest : List (L × V)) (ws : List (L × V))
      (h : its[i]? = some (x :: rest)) (h' : Interleaving (its.set i rest) ws) :
      Interleaving its (x :: ws)

/-- Iterations do not write to common locations. -/
def Disjoint (its : List (List (L × V))) : Prop :=
  ∀ (i j : Nat) (a b : List (L × V)), its[i]? = some a → its[j]? = some b → i ≠ j → ∀ x ∈ a, ∀ y ∈ b, x.1 ≠ y.1

/-- The value of location `l` after the writes `ws`. -/
theorem exec_apply (m : L → V) (ws : List (L × V)) (l : L) :
    exec m ws l = (((ws.filter fun x => decide (x.1 = l)).getLast?).map Prod.snd).getD (m l) := by
  induction ws generalizing m with
  | nil => rfl
  | cons x ws ih =>
    obtain ⟨l', v⟩ := x
    simp only [exec, ih]
    by_cases h : l' = l
    · subst h
      simp only [List.filter_cons, decide_true, if_true, Function.update_self]
      cases hf : (ws.filter fun x => decide (x.1 = l')) with
      | nil => simp
      | cons y ys => simp [List.getLast?_cons]
    · simp only [List.filter_cons, h, decide_false, Bool.false_eq_true, if_false]
      rw [Function.update_of_ne (Ne.symm h)]

theorem Interleaving.filter {its : List (List (L × V))} {ws : List (L × V)}
    (h : Interleaving its ws) (l : L) (i : Nat) (a : List (L × V)) (hi : its[i]? = some a)
    (hl : ∀ (j : Nat) (b : List (L × V)), its[j]? = some b → j ≠ i → ∀ y ∈ b, y.1 ≠ l) :
    ws.filter (fun x => decide (x.1 = l)) = a.filter (fun x => decide (x.1 = l)) := by
  induction h generalizing a with
  | done its h =>
    rw [h a (List.mem_of_getElem? hi)]
  | step its k x rest ws hk h' ih =>
    have hlen : k < its.length := (List.getElem?_eq_some_iff.1 hk).1
    by_cases hki : k = i
    · subst hki
      rw [hk] at hi
      obtain rfl := Option.some.inj hi
      have := ih rest (by simp [hlen]) (by
        intro j b hj hne
        rw [List.getElem?_set_ne (Ne.symm hne)] at hj
        exact hl j b hj hne)
      simp only [List.filter_cons, this]
    · have hx : x.1 ≠ l := hl k _ hk hki x (by simp)
      have := ih a (by rw [List.getElem?_set_ne hki]; exact hi) (by
        intro j b hj hne
        by_cases hjk : j = k
        · subst hjk
          rw [List.getElem?_set_self hlen] at hj
          obtain rfl := Option.some.inj hj
          exact fun y hy => hl j _ hk hne y (by simp [hy])
        · rw [List.getElem?_set_ne (Ne.symm hjk)] at hj
          exact hl j b hj hne)
      simp only [List.filter_cons, this, hx, decide_false, Bool.false_eq_true, if_false]

theorem Interleaving.filter_none {its : List (List (L × V))} {ws : List (L × V)}
    (h : Interleaving its ws) (l : L)
    (hl : ∀ (j : Nat) (b : List (L × V)), its[j]? = some b → ∀ y ∈ b, y.1 ≠ l) :
    ws.filter (fun x => decide (x.1 = l)) = [] := by
  induction h with
  | done its h => rfl
  | step its k x rest ws hk h' ih =>
    have hlen : k < its.length := (List.getElem?_eq_some_iff.1 hk).1
    have hx : x.1 ≠ l := hl k _ hk x (by simp)
    simp only [List.filter_cons, hx, decide_false, Bool.false_eq_true, if_false]
    apply ih
    intro j b hj
    by_cases hjk : j = k
    · subst hjk
      rw [List.getElem?_set_self hlen] at hj
      obtain rfl := Option.some.inj hj
      exact fun y hy => hl j _ hk y (by simp [hy])
    · rw [List.getElem?_set_ne (Ne.symm hjk)] at hj
      exact hl j b hj

/-- The contents of a location written by iteration `i` only. -/
theorem exec_owned {its : List (List (L × V))} {ws : List (L × V)} (h : Interleaving its ws)
    (m : L → V) (l : L) (i : Nat) (a : List (L × V)) (hi : its[i]? = some a)
    (hl : ∀ (j : Nat) (b : List (L × V)), its[j]? = some b → j ≠ i → ∀ y ∈ b, y.1 ≠ l) :
    exec m ws l = exec m a l := by
  rw [exec_apply, exec_apply, h.filter l i a hi hl]

/-- A location nobody writes keeps its contents. -/
theorem exec_untouched {its : List (List (L × V))} {ws : List (L × V)} (h : Interleaving its ws)
    (m : L → V) (l : L) (hl : ∀ (j : Nat) (b : List (L × V)), its[j]? = some b → ∀ y ∈ b, y.1 ≠ l) :
    exec m ws l = m l := by
  rw [exec_apply, h.filter_none l hl]; rfl

/-- If the iterations write to disjoint locations, the final memory does not depend on the
schedule. -/
theorem exec_deterministic {its : List (List (L × V))} (hd : Disjoint its) {ws ws' : List (L × V)}
    (h : Interleaving its ws) (h' : Interleaving its ws') (m : L → V) :
    exec m ws = exec m ws' := by
  funext l
  by_cases hex : ∃ (i : Nat) (a : List (L × V)), its[i]? = some a ∧ ∃ x ∈ a, x.1 = l
  · obtain ⟨i, a, hi, x, hx, rfl⟩ := hex
    have hl : ∀ (j : Nat) (b : List (L × V)), its[j]? = some b → j ≠ i → ∀ y ∈ b, y.1 ≠ x.1 :=
      fun j b hj hne y hy => hd j i b a hj hi hne y hy x hx
    rw [exec_owned h m x.1 i a hi hl, exec_owned h' m x.1 i a hi hl]
  · push Not at hex
    have hl : ∀ (j : Nat) (b : List (L × V)), its[j]? = some b → ∀ y ∈ b, y.1 ≠ l := fun j b hj y hy => hex j b hj y hy
    rw [exec_untouched h m l hl, exec_untouched h' m l hl]

/-- The sequential execution is an interleaving. -/
theorem Interleaving.sequential (its : List (List (L × V))) : Interleaving its its.flatten := by
  have gen : ∀ (n : Nat) (pre : List (List (L × V))) (its : List (List (L × V))),
      (∀ x ∈ pre, x = []) → its.flatten.length = n → Interleaving (pre ++ its) its.flatten := by
    intro n
    induction n with
    | zero =>
      intro pre its hpre hn
      have h0 : its.flatten = [] := List.length_eq_zero_iff.1 hn
      rw [h0]
      refine .done _ ?_
      intro x hx
      rcases List.mem_append.1 hx with hx | hx
      · exact hpre x hx
      · exact List.flatten_eq_nil_iff.1 h0 x hx
    | succ n ih =>
      intro pre its hpre hn
      induction its generalizing pre with
      | nil => simp at hn
      | cons a its ih2 =>
        cases a with
        | nil =>
          have := ih2 (pre ++ [[]]) (by
            intro x hx
            rcases List.mem_append.1 hx with hx | hx
            · exact hpre x hx
            · simpa using hx) (by simpa using hn)
          simpa using this
        | cons x rest =>
          have h1 : (pre ++ (x :: rest) :: its)[pre.length]? = some (x :: rest) := by simp
          refine .step _ pre.length x rest _ h1 ?_
          have := ih pre (rest :: its) hpre (by simp at hn ⊢; omega)
          simpa using this
  have := gen _ [] its (by simp) rfl
  simpa using this

end Verif.Par
