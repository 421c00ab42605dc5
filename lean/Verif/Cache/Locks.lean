import Verif.Cache.Props
import Mathlib.Logic.Function.Iterate

/-!
# The wrappers with a lock, statement by statement (C153)

Model of the two wrappers of `lru_cache` which take a lock (`/repo/cosmic_profiles/common/caching.py:91-151, 177-232`), of `cache_info` (lines 234-237)
and of `cache_clear` (lines 239-246), in single reads and writes of shared variables between which the interpreter may switch threads.  `with lock` is a
step that is possible only while nobody holds the lock.  In `Model.lean` (C10) everything between `with lock` and its end is one step; here this is proved.

Simplifications: the user function is deterministic up to failures (as in C01 and C10); it may call the wrapper again (the stack of a thread).  The read of
`oldresult` (which keeps an object alive) is left out.  Leaving the `with` block and returning to the caller is one step.  The free memory
that `psutil` will report is fixed when the lock is taken.
-/

set_option linter.unusedSectionVars false

namespace Verif.Cache.Locks

variable {A K V E : Type} [DecidableEq K]

/-! ## Model -/

/-- Where a call is (line numbers of the wrapper with `maxsize`). -/
inductive PC where
  /-- 183 before the first `with lock` -/
  | called
  /-- 184 `link = cache_get(key)` and the test -/
  | get
  /-- 187 `link_prev, link_next, _key, result = link` -/
  | unpack
  /-- 188 `link_prev[NEXT] = link_next` -/
  | unlink1
  /-- 189 `link_next[PREV] = link_prev` -/
  | unlink2
  /-- 190 `last = root[PREV]` -/
  | last
  /-- 191 `last[NEXT] = link` -/
  | front1
  /-- 191 `root[PREV] = link` -/
  | front2
  /-- 192 `link[PREV] = last` -/
  | front3
  /-- 193 `link[NEXT] = root` -/
  | front4
  /-- 194 load of `hits` -/
  | hits1
  /-- 194 store of `hits` -/
  | hits2
  /-- 195 `return result` -/
  | found
  /-- end of the first `with lock` -/
  | notFound
  /-- 196 the user function is running -/
  | computing
  /-- 197 before the second `with lock` -/
  | computed
  /-- 198, 204 the tests -/
  | test
  /-- 206 `oldroot = root` -/
  | evict1
  /-- 207 `oldroot[KEY] = key` -/
  | evict2
  /-- 208 `oldroot[RESULT] = result` -/
  | evict3
  /-- 215 `root = oldroot[NEXT]` -/
  | evict4
  /-- 216 `oldkey = root[KEY]` -/
  | evict5
  /-- 218 `root[KEY] = None` -/
  | evict6
  /-- 218 `root[RESULT] = None` -/
  | evict7
  /-- 220 `del cache[oldkey]` -/
  | evict8
  /-- 224 `cache[key] = oldroot` -/
  | evict9
  /-- 227 `last = root[PREV]` -/
  | fresh1
  /-- 228 `link = [last, root, key, result]` -/
  | fresh2
  /-- 229 `last[NEXT] = link` -/
  | fresh3
  /-- 229 `root[PREV] = link` -/
  | fresh4
  /-- 229 `cache[key] = link` -/
  | fresh5
  /-- 230 `full = ...` -/
  | fresh6
  /-- 231 load of `misses` -/
  | misses1
  /-- 231 store of `misses` -/
  | misses2
  /-- end of the second `with lock`, 232 `return result` -/
  | made
  /-- `KeyError` of line 220 leaves the `with` block -/
  | failed
deriving DecidableEq, Repr

/-- Local variables of a call. -/
structure Locals (K V : Type) where
  avail : Nat
  link : Addr
  linkPrev : Addr
  linkNext : Addr
  last : Addr
  oldroot : Addr
  oldkey : Option K
  result : Option V
  loaded : Nat

/-- No local variable has been assigned. -/
def Locals.init : Locals K V := ⟨0, 0, 0, 0, 0, 0, none, none, 0⟩

/-- Where a call of `cache_clear` is: before `with lock`, before `cache.clear()`, `root[:] = ...`, `hits = 0`, `misses = 0`, `full = False`, the end. -/
inductive ClearPC where
  | called | entries | ring | hits | misses | full | done
deriving DecidableEq, Repr

/-- Where a call of `cache_info` is: before `with lock`, before the reads of `hits`, `misses`, `len(cache)`, the end. -/
inductive InfoPC where
  | called | hits | misses | size | done
deriving DecidableEq, Repr

/-- A call under way. -/
inductive Frame (A K V : Type) where
  | call (a : A) (pc : PC) (l : Locals K V)
  | clear (pc : ClearPC)
  | info (pc : InfoPC) (i : Info)

/-- One statement inside a `with lock` block, caching.py:184-194, 198-231 (and 98-108, 112-148), 237, 243-246; nothing outside and at the end of the
block. -/
def micro (m : Mode) (key : A → K) : State K V × Frame A K V → State K V × Frame A K V
  | (s, .call a pc l) => match pc with
    | .get => match s.cache.get (key a) with
      | some (.link b) => (s, .call a .unpack { l with link := b })
      | _ => (s, .call a .notFound l)
    | .unpack => (s, .call a .unlink1 { l with linkPrev := s.prev l.link, linkNext := s.next l.link, result := s.result l.link })
    | .unlink1 => ({ s with next := upd s.next l.linkPrev l.linkNext }, .call a .unlink2 l)
    | .unlink2 => ({ s with prev := upd s.prev l.linkNext l.linkPrev }, .call a .last l)
    | .last => (s, .call a .front1 { l with last := s.prev s.root })
    | .front1 => ({ s with next := upd s.next l.last l.link }, .call a .front2 l)
    | .front2 => ({ s with prev := upd s.prev s.root l.link }, .call a .front3 l)
    | .front3 => ({ s with prev := upd s.prev l.link l.last }, .call a .front4 l)
    | .front4 => ({ s with next := upd s.next l.link s.root }, .call a .hits1 l)
    | .hits1 => (s, .call a .hits2 { l with loaded := s.hits })
    | .hits2 => ({ s with hits := l.loaded + 1 }, .call a .found l)
    | .test => if (s.cache.get (key a)).isSome then (s, .call a .misses1 l)
      else if s.full then (s, .call a .evict1 l) else (s, .call a .fresh1 l)
    | .evict1 => (s, .call a .evict2 { l with oldroot := s.root })
    | .evict2 => ({ s with key := upd s.key l.oldroot (some (key a)) }, .call a .evict3 l)
    | .evict3 => ({ s with result := upd s.result l.oldroot l.result }, .call a .evict4 l)
    | .evict4 => ({ s with root := s.next l.oldroot }, .call a .evict5 l)
    | .evict5 => (s, .call a .evict6 { l with oldkey := s.key s.root })
    | .evict6 => ({ s with key := upd s.key s.root none }, .call a .evict7 l)
    | .evict7 => ({ s with result := upd s.result s.root none }, .call a .evict8 l)
    | .evict8 => match l.oldkey with
      | none => (s, .call a .failed l)
      | some k => match s.cache.get k with
        | none => (s, .call a .failed l)
        | some _ => ({ s with cache := s.cache.del k }, .call a .evict9 l)
    | .evict9 => ({ s with cache := s.cache.set (key a) (.link l.oldroot) }, .call a .misses1 l)
    | .fresh1 => (s, .call a .fresh2 { l with last := s.prev s.root })
    | .fresh2 => ({ s with fresh := s.fresh + 1, prev := upd s.prev s.fresh l.last, next := upd s.next s.fresh s.root,
                           key := upd s.key s.fresh (some (key a)), result := upd s.result s.fresh l.result },
        .call a .fresh3 { l with link := s.fresh })
    | .fresh3 => ({ s with next := upd s.next l.last l.link }, .call a .fresh4 l)
    | .fresh4 => ({ s with prev := upd s.prev s.root l.link }, .call a .fresh5 l)
    | .fresh5 => ({ s with cache := s.cache.set (key a) (.link l.link) }, .call a .fresh6 l)
    | .fresh6 => ({ s with full := fullAfter m s.cache.length l.avail }, .call a .misses1 l)
    | .misses1 => (s, .call a .misses2 { l with loaded := s.misses })
    | .misses2 => ({ s with misses := l.loaded + 1 }, .call a .made l)
    | pc => (s, .call a pc l)
  | (s, .clear pc) => match pc with
    | .entries => ({ s with cache := [] }, .clear .ring)
    | .ring => ({ s with prev := upd s.prev s.root s.root, next := upd s.next s.root s.root, key := upd s.key s.root none,
                         result := upd s.result s.root none }, .clear .hits)
    | .hits => ({ s with hits := 0 }, .clear .misses)
    | .misses => ({ s with misses := 0 }, .clear .full)
    | .full => ({ s with full := false }, .clear .done)
    | pc => (s, .clear pc)
  | (s, .info pc i) => match pc with
    | .hits => (s, .info .misses ⟨s.hits, i.misses, i.currsize⟩)
    | .misses => (s, .info .size ⟨i.hits, s.misses, i.currsize⟩)
    | .size => (s, .info .done ⟨i.hits, i.misses, s.cache.length⟩)
    | pc => (s, .info pc i)

/-- What users see: a call of thread `t` with argument `a` has ended with a value (`found`: from the cache; Python's `None` if there is none), with the
exception of the user function, or with a `KeyError`; the cache has been cleared; `cache_info()` has returned. -/
inductive Seen (A V E : Type) where
  | value (t : Nat) (a : A) (v : Option V) (found : Bool)
  | raised (t : Nat) (a : A) (e : E)
  | keyError (t : Nat) (a : A)
  | cleared
  | info (t : Nat) (i : Info)
deriving DecidableEq

/-- Shared variables, the thread holding the lock, the stacks of the threads, and what has been seen. -/
structure Sys (A K V E : Type) where
  st : State K V
  holder : Option Nat
  threads : Nat → List (Frame A K V)
  seen : List (Seen A V E)

/-- The closure just after decoration (caching.py:86-93), the lock free, no thread doing anything. -/
def Sys.init : Sys A K V E := ⟨State.init, none, fun _ => [], []⟩

/-- Steps of a thread: begin a call, a clear or an info (possible if it does nothing else or runs the user function); continue; or the user function fails. -/
inductive Act (A E : Type) where
  | call (a : A)
  | clear
  | info
  | next (avail : Nat)
  | fail (e : E)

/-- The thread executes code of the user. -/
def atUser : List (Frame A K V) → Bool
  | [] => true
  | .call _ .computing _ :: _ => true
  | _ => false

/-- `with lock`: the frame behind it, if the frame is before one. -/
def entering (avail : Nat) : Frame A K V → Option (Frame A K V)
  | .call a .called l => some (.call a .get l)
  | .call a .computed l => some (.call a .test { l with avail := avail })
  | .clear .called => some (.clear .entries)
  | .info .called i => some (.info .hits i)
  | _ => none

/-- The end of a `with lock` block: what remains of the frame and what is seen. -/
def leaving (t : Nat) : Frame A K V → Option (List (Frame A K V) × List (Seen A V E))
  | .call a .found l => some ([], [.value t a l.result true])
  | .call a .notFound l => some ([.call a .computing l], [])
  | .call a .made l => some ([], [.value t a l.result false])
  | .call a .failed _ => some ([], [.keyError t a])
  | .clear .done => some ([], [.cleared])
  | .info .done i => some ([], [.info t i])
  | _ => none

/-- One step of thread `t`; `none`: impossible. -/
def step (m : Mode) (key : A → K) (f : A → V) (s : Sys A K V E) (t : Nat) : Act A E → Option (Sys A K V E)
  | .call a => if atUser (s.threads t) then
      some ⟨s.st, s.holder, Function.update s.threads t (.call a .called .init :: s.threads t), s.seen⟩ else none
  | .clear => if atUser (s.threads t) then
      some ⟨s.st, s.holder, Function.update s.threads t (.clear .called :: s.threads t), s.seen⟩ else none
  | .info => if atUser (s.threads t) then
      some ⟨s.st, s.holder, Function.update s.threads t (.info .called ⟨0, 0, 0⟩ :: s.threads t), s.seen⟩ else none
  | .fail e => match s.threads t with
    | .call a .computing _ :: rest => some ⟨s.st, s.holder, Function.update s.threads t rest, s.seen ++ [.raised t a e]⟩
    | _ => none
  | .next avail => match s.threads t with
    | [] => none
    | .call a .computing l :: rest =>
      some ⟨s.st, s.holder, Function.update s.threads t (.call a .computed { l with result := some (f a) } :: rest), s.seen⟩
    | fr :: rest => match entering avail fr, leaving t fr with
      | some fr', _ => if s.holder = none then some ⟨s.st, some t, Function.update s.threads t (fr' :: rest), s.seen⟩ else none
      | none, some (left, seen) => some ⟨s.st, none, Function.update s.threads t (left ++ rest), s.seen ++ seen⟩
      | none, none => some ⟨(micro m key (s.st, fr)).1, s.holder, Function.update s.threads t ((micro m key (s.st, fr)).2 :: rest), s.seen⟩

/-- An execution: a list of (thread, step). -/
def exec (m : Mode) (key : A → K) (f : A → V) : Sys A K V E → List (Nat × Act A E) → Option (Sys A K V E)
  | s, [] => some s
  | s, (t, x) :: l => (step m key f s t x).bind fun s' => exec m key f s' l

/-! ## Specification -/

/-- Number of calls that have ended with a value since the last clear, answered from the cache (`found`) or not. -/
def endedSince (found : Bool) : List (Seen A V E) → Nat :=
  List.foldl (fun n x => match x with
    | .cleared => 0
    | .value _ _ _ b => if b = found then n + 1 else n
    | _ => n) 0

/-- What an execution with undivided phases (`crun`, C10) shows. -/
def told : List (Event A E × Option (A × Out V E)) → List (Seen A V E) :=
  List.flatMap fun x => match x with
    | (.start t _, some (a, .ok v _)) => [.value t a (some v) true]
    | (.finish t _ _, some (a, .ok v _)) => [.value t a (some v) false]
    | (.finish t _ _, some (a, .raised e)) => [.raised t a e]
    | (.finish t _ _, some (a, .keyError)) => [.keyError t a]
    | (.clear, _) => [.cleared]
    | _ => []

/-- Everything but the answers of `cache_info`. -/
def notInfo : Seen A V E → Bool
  | .info _ _ => false
  | _ => true

/-! ## One block -/

/-- Inside a `with lock` block. -/
def inside : Frame A K V → Bool
  | .call _ pc _ => match pc with
    | .called | .computing | .computed => false
    | _ => true
  | .clear pc => pc != .called
  | .info pc _ => pc != .called

/-- The argument, if the call has missed and not ended. -/
def pend : Frame A K V → Option A
  | .call a pc _ => match pc with
    | .called | .get | .unpack | .unlink1 | .unlink2 | .last | .front1 | .front2 | .front3 | .front4 | .hits1 | .hits2 | .found | .notFound => none
    | _ => some a
  | _ => none

theorem micro_inside (m : Mode) (key : A → K) (s : State K V) (fr : Frame A K V) (h : inside fr = true) : inside (micro m key (s, fr)).2 = true := by
  cases fr with
  | call a pc l =>
    cases pc <;> first
      | exact h
      | rfl
      | (simp only [micro]; repeat' split) <;> rfl
  | clear pc => cases pc <;> first | exact h | rfl
  | info pc i => cases pc <;> first | exact h | rfl

theorem micro_pend (m : Mode) (key : A → K) (s : State K V) (fr : Frame A K V) : pend (micro m key (s, fr)).2 = pend fr := by
  cases fr with
  | call a pc l =>
    cases pc <;> first
      | rfl
      | (simp only [micro]; (repeat' split) <;> rfl)
  | clear pc => cases pc <;> rfl
  | info pc i => cases pc <;> rfl

/-- Frames on which `micro` does nothing. -/
theorem micro_left (m : Mode) (key : A → K) (s : State K V) (t : Nat) (fr : Frame A K V) (x : List (Frame A K V) × List (Seen A V E))
    (h : leaving t fr = some x) : micro m key (s, fr) = (s, fr) := by
  cases fr with
  | call a pc l => cases pc <;> first | rfl | cases h
  | clear pc => cases pc <;> first | rfl | cases h
  | info pc i => cases pc <;> first | rfl | cases h

theorem result_of_link {m : Mode} (hm : m.isLink = true) {key : A → K} {f : A → V} {s : State K V} (h : CInv m key f s) (k : K) (b : Addr)
    (hg : s.cache.get k = some (.link b)) : ∃ v, s.result b = some v := by
  obtain ⟨t, ⟨-, -, h1⟩, -⟩ := h
  have : ∃ as, Rep s as t.entries := by
    cases m with
    | zero => cases hm
    | unbounded => cases hm
    | memory l => exact h1.2.2
    | bounded n => exact h1.2.2
  obtain ⟨as, hr⟩ := this
  obtain ⟨l1, l2⟩ := link_lookup hr k
  cases hg' : aget t.entries k with
  | none => rw [l2 hg'] at hg; cases hg
  | some v =>
    obtain ⟨b', as', h1, h2, h3⟩ := l1 v hg'
    rw [hg] at h1
    cases h1
    exact ⟨v, h2⟩

/-- The first block is the first phase. -/
theorem block_get {m : Mode} (hm : m.isLink = true) {key : A → K} {f : A → V} {s : State K V} (h : CInv m key f s) (a : A) (l : Locals K V) :
    (∃ v l', (lookupPhase m s (key a)).2 = some v ∧ l'.result = some v ∧
      (micro m key)^[12] (s, .call a .get l) = ((lookupPhase m s (key a)).1, .call a .found l')) ∨
    ∃ l', (lookupPhase m s (key a)).2 = none ∧ (micro m key)^[12] (s, .call a .get l) = ((lookupPhase m s (key a)).1, .call a .notFound l') := by
  have hl : lookupPhase m s (key a) = match s.cache.get (key a) with
    | some (.link b) => match s.result b with
      | some v => ({ moveToFront s b with hits := (moveToFront s b).hits + 1 }, some v)
      | none => (s, none)
    | _ => (s, none) := by
    cases m with
    | zero => cases hm
    | unbounded => cases hm
    | memory n => rfl
    | bounded n => rfl
  rw [hl]
  cases hg : s.cache.get (key a) with
  | none =>
    refine .inr ⟨l, rfl, ?_⟩
    have h0 : micro m key (s, Frame.call a PC.get l) = (s, .call a .notFound l) := by simp [micro, hg]
    rw [Function.iterate_succ_apply, h0]
    rfl
  | some x =>
    cases x with
    | val v =>
      refine .inr ⟨l, rfl, ?_⟩
      have h0 : micro m key (s, Frame.call a PC.get l) = (s, .call a .notFound l) := by simp [micro, hg]
      rw [Function.iterate_succ_apply, h0]
      rfl
    | link b =>
      obtain ⟨v, hv⟩ := result_of_link hm h (key a) b hg
      left
      simp only [hv]
      have h0 : micro m key (s, Frame.call a PC.get l) = (s, .call a .unpack { l with link := b }) := by simp [micro, hg]
      rw [Function.iterate_succ_apply, h0]
      refine ⟨v, ⟨l.avail, b, s.prev b, s.next b, (upd s.prev (s.next b) (s.prev b)) s.root, l.oldroot, l.oldkey, some v, s.hits⟩, rfl, rfl, ?_⟩
      rw [← hv]
      rfl

/-- The second block is the second phase. -/
theorem block_test {m : Mode} (hm : m.isLink = true) {key : A → K} {s s' : State K V} (a : A) (v : V) (l : Locals K V)
    (hv : l.result = some v) (hs : insertPhase m s (key a) v l.avail = some s') :
    ∃ l', l'.result = some v ∧ (micro m key)^[12] (s, .call a .test l) = (s', .call a .made l') := by
  have hl : insertPhase m s (key a) v l.avail = if (s.cache.get (key a)).isSome then some { s with misses := s.misses + 1 }
      else if s.full then
        match evictInsert s (key a) v with
        | none => none
        | some s' => some { s' with misses := s'.misses + 1 }
      else
        let s' := freshInsert s (key a) v
        let s' := { s' with full := fullAfter m s'.cache.length l.avail }
        some { s' with misses := s'.misses + 1 } := by
    cases m with
    | zero => cases hm
    | unbounded => cases hm
    | memory n => rfl
    | bounded n => rfl
  rw [hl] at hs
  obtain ⟨av, ln, lp, lnx, la, ol, ok, res, ld⟩ := l
  dsimp only at hv hs
  subst hv
  by_cases h1 : (s.cache.get (key a)).isSome = true
  · rw [if_pos h1] at hs
    obtain rfl := Option.some.inj hs
    have h0 : micro m key (s, Frame.call a PC.test ⟨av, ln, lp, lnx, la, ol, ok, some v, ld⟩) = (s, .call a .misses1 ⟨av, ln, lp, lnx, la, ol, ok, some v, ld⟩) := by
      simp [micro, h1]
    rw [Function.iterate_succ_apply, h0]
    exact ⟨⟨av, ln, lp, lnx, la, ol, ok, some v, s.misses⟩, rfl, rfl⟩
  · rw [if_neg h1] at hs
    by_cases h2 : s.full = true
    · rw [if_pos h2] at hs
      have h0 : micro m key (s, Frame.call a PC.test ⟨av, ln, lp, lnx, la, ol, ok, some v, ld⟩) = (s, .call a .evict1 ⟨av, ln, lp, lnx, la, ol, ok, some v, ld⟩) := by
        simp [micro, h1, h2]
      rw [Function.iterate_succ_apply, h0]
      set r := s.next s.root with hr
      have h9 : (micro m key)^[7] (s, Frame.call a PC.evict1 ⟨av, ln, lp, lnx, la, ol, ok, some v, ld⟩) =
          ({ s with root := r, key := upd (upd s.key s.root (some (key a))) r none, result := upd (upd s.result s.root (some v)) r none },
            .call a .evict8 ⟨av, ln, lp, lnx, la, s.root, upd s.key s.root (some (key a)) r, some v, ld⟩) := rfl
      rw [Function.iterate_add_apply (micro m key) 4 7, h9]
      unfold evictInsert at hs
      dsimp only at hs
      rw [← hr] at hs
      cases hk : upd s.key s.root (some (key a)) r with
      | none => rw [hk] at hs; cases hs
      | some k =>
        rw [hk] at hs
        dsimp only at hs
        cases hg : s.cache.get k with
        | none => rw [hg] at hs; cases hs
        | some x =>
          rw [hg] at hs
          obtain rfl := Option.some.inj hs
          have h8 : ∀ (st : State K V) (l : Locals K V), l.oldkey = some k → st.cache.get k = some x → micro m key (st, Frame.call a PC.evict8 l) =
              ({ st with cache := st.cache.del k }, .call a .evict9 l) := by
            intro st l h1 h2
            simp only [micro, h1, h2]
          rw [Function.iterate_succ_apply, h8]
          · exact ⟨⟨av, ln, lp, lnx, la, s.root, some k, some v, s.misses⟩, rfl, rfl⟩
          · rfl
          · exact hg
    · rw [if_neg h2] at hs
      obtain rfl := Option.some.inj hs
      have h0 : micro m key (s, Frame.call a PC.test ⟨av, ln, lp, lnx, la, ol, ok, some v, ld⟩) = (s, .call a .fresh1 ⟨av, ln, lp, lnx, la, ol, ok, some v, ld⟩) := by
        simp [micro, h1, h2]
      rw [Function.iterate_succ_apply, h0]
      exact ⟨⟨av, s.fresh, lp, lnx, s.prev s.root, ol, ok, some v, s.misses⟩, rfl, rfl⟩

theorem block_clear (m : Mode) (key : A → K) (s : State K V) : (micro m key)^[12] (s, (.clear .entries : Frame A K V)) = (cacheClear s, .clear .done) := rfl

theorem block_info (m : Mode) (key : A → K) (s : State K V) (i : Info) :
    (micro m key)^[12] (s, (.info .hits i : Frame A K V)) = (s, .info .done (cacheInfo s)) := rfl

/-! ## Executions -/

/-- The state of an execution with undivided phases. -/
abbrev phases (m : Mode) (key : A → K) (f : A → V) (evs : List (Event A E)) : CState A K V × List (Option (A × Out V E) × Info) :=
  crun m key f ⟨State.init, []⟩ evs

/-- What the users see of an execution with undivided phases. -/
abbrev shown (m : Mode) (key : A → K) (f : A → V) (evs : List (Event A E)) : List (Seen A V E) :=
  told (evs.zip ((phases m key f evs).2.map Prod.fst))

theorem crun_snoc (m : Mode) (key : A → K) (f : A → V) (evs : List (Event A E)) (ev : Event A E) (c : CState A K V) :
    (crun m key f c (evs ++ [ev])).1 = (cstep m key f (crun m key f c evs).1 ev).1 ∧
    (crun m key f c (evs ++ [ev])).2.map Prod.fst = (crun m key f c evs).2.map Prod.fst ++ [(cstep m key f (crun m key f c evs).1 ev).2] ∧
    (crun m key f c evs).2.length = evs.length := by
  induction evs generalizing c with
  | nil => exact ⟨rfl, rfl, rfl⟩
  | cons e evs ih =>
    obtain ⟨h1, h2, h3⟩ := ih (cstep m key f c e).1
    refine ⟨h1, ?_, ?_⟩
    · simp only [List.cons_append, crun, List.map_cons]
      rw [h2]
    · simp only [crun, List.length_cons, h3]

theorem shown_snoc (m : Mode) (key : A → K) (f : A → V) (evs : List (Event A E)) (ev : Event A E) :
    shown m key f (evs ++ [ev]) = shown m key f evs ++ told [(ev, (cstep m key f (phases m key f evs).1 ev).2)] := by
  unfold shown phases
  obtain ⟨-, h2, h3⟩ := crun_snoc m key f evs ev (⟨State.init, []⟩ : CState A K V)
  rw [h2, List.zip_append (by rw [List.length_map, h3])]
  unfold told
  rw [List.flatMap_append]
  rfl

/-- Frames at the beginning of a block. -/
def Entry (f : A → V) : Frame A K V → Prop
  | .call _ .get _ => True
  | .call a .test l => l.result = some (f a)
  | .clear .entries => True
  | .info .hits _ => True
  | _ => False

/-- Frames of which the user function has returned. -/
def ResultOK (f : A → V) : Frame A K V → Prop
  | .call a .computed l => l.result = some (f a)
  | _ => True

/-- Relation between an execution step by step and one with undivided phases. -/
structure Inv (m : Mode) (key : A → K) (f : A → V) (s : Sys A K V E) (evs : List (Event A E)) : Prop where
  log : s.seen.filter notInfo = shown m key f evs
  pending : ∀ t, (s.threads t).filterMap pend = pendingArgs (phases m key f evs).1.pending t
  lower : ∀ t, ∀ fr ∈ (s.threads t).tail, ∃ a l, fr = .call a .computing l
  results : ∀ t, ∀ fr ∈ s.threads t, ResultOK f fr
  outside : ∀ t, some t ≠ s.holder → ∀ fr ∈ s.threads t, inside fr = false
  free : s.holder = none → s.st = (phases m key f evs).1.st
  held : ∀ t, s.holder = some t → ∃ fr rest e, s.threads t = fr :: rest ∧ inside fr = true ∧ Entry f e ∧ pend fr = pend e ∧
    (micro m key)^[12] (s.st, fr) = (micro m key)^[12] ((phases m key f evs).1.st, e)
  infos : ∀ l₁ t i l₂, s.seen = l₁ ++ .info t i :: l₂ → ∃ evs' : List (Event A E), l₁.filter notInfo = shown m key f evs' ∧
    i = cacheInfo (phases m key f evs').1.st

theorem Inv.init (m : Mode) (key : A → K) (f : A → V) : Inv m key f (Sys.init : Sys A K V E) [] := by
  refine ⟨rfl, fun _ => rfl, ?_, ?_, ?_, fun _ => rfl, ?_, ?_⟩
  · intro t fr h; cases h
  · intro t fr h; cases h
  · intro t _ fr h; cases h
  · intro t h; cases h
  · intro l₁ t i l₂ h
    cases l₁ <;> cases h

theorem filterMap_update (threads : Nat → List (Frame A K V)) (t t' : Nat) (st : List (Frame A K V)) (h : st.filterMap pend = (threads t).filterMap pend) :
    (Function.update threads t st t').filterMap pend = (threads t').filterMap pend := by
  by_cases ht : t' = t
  · subst ht; rw [Function.update_self, h]
  · rw [Function.update_of_ne ht]

theorem update_all {P : Nat → Frame A K V → Prop} (threads : Nat → List (Frame A K V)) (t : Nat) (st : List (Frame A K V))
    (h : ∀ t, ∀ fr ∈ threads t, P t fr) (hst : ∀ fr ∈ st, P t fr) : ∀ t', ∀ fr ∈ Function.update threads t st t', P t' fr := by
  intro t' fr hfr
  by_cases ht : t' = t
  · subst ht; rw [Function.update_self] at hfr; exact hst fr hfr
  · rw [Function.update_of_ne ht] at hfr; exact h t' fr hfr

theorem update_tail {P : Frame A K V → Prop} (threads : Nat → List (Frame A K V)) (t : Nat) (st : List (Frame A K V))
    (h : ∀ t, ∀ fr ∈ (threads t).tail, P fr) (hst : ∀ fr ∈ st.tail, P fr) : ∀ t', ∀ fr ∈ (Function.update threads t st t').tail, P fr := by
  intro t' fr hfr
  by_cases ht : t' = t
  · subst ht; rw [Function.update_self] at hfr; exact hst fr hfr
  · rw [Function.update_of_ne ht] at hfr; exact h t' fr hfr

/-- A step of a thread outside of all blocks, which shows nothing and leaves its missed calls as they are. -/
theorem Inv.quiet {m : Mode} {key : A → K} {f : A → V} {s : Sys A K V E} {evs : List (Event A E)} (h : Inv m key f s evs) (t : Nat)
    (ht : some t ≠ s.holder) (st : List (Frame A K V)) (h1 : st.filterMap pend = (s.threads t).filterMap pend)
    (h2 : ∀ fr ∈ st.tail, ∃ a l, fr = .call a .computing l) (h3 : ∀ fr ∈ st, ResultOK f fr) (h4 : ∀ fr ∈ st, inside fr = false) :
    Inv m key f (⟨s.st, s.holder, Function.update s.threads t st, s.seen⟩ : Sys A K V E) evs := by
  refine ⟨h.log, ?_, update_tail _ _ _ h.lower h2, update_all (P := fun _ => ResultOK f) _ _ _ h.results h3, ?_, h.free, ?_, h.infos⟩
  · intro t'
    rw [filterMap_update _ _ _ _ h1]
    exact h.pending t'
  · intro t' ht'
    by_cases e : t' = t
    · subst e
      show ∀ fr ∈ Function.update s.threads t' st t', inside fr = false
      rw [Function.update_self]; exact h4
    · show ∀ fr ∈ Function.update s.threads t st t', inside fr = false
      rw [Function.update_of_ne e]; exact h.outside t' ht'
  · intro t' ht'
    have e : t' ≠ t := by rintro rfl; exact ht ht'.symm
    show ∃ fr rest e, Function.update s.threads t st t' = fr :: rest ∧ _
    rw [Function.update_of_ne e]
    exact h.held t' ht'

theorem phases_inv (m : Mode) (key : A → K) (f : A → V) (hkey : ∀ a b, key a = key b → f a = f b) (evs : List (Event A E)) :
    CInv m key f (phases m key f evs).1.st := by
  have hstep : ∀ (c : CState A K V) (ev : Event A E), CInv m key f c.st → CInv m key f (cstep m key f c ev).1.st := by
    intro c ev hc
    cases ev with
    | clear => exact hc.clear
    | start t a =>
      have l1 := (hc.lookup a).1
      simp only [cstep]
      rcases hl : lookupPhase m c.st (key a) with ⟨s1, r⟩
      rw [hl] at l1
      cases r <;> exact l1
    | finish t fail avail =>
      simp only [cstep]
      cases hp : pendingOf c.pending t with
      | none => exact hc
      | some a =>
        cases fail with
        | some e => exact hc
        | none =>
          obtain ⟨s', i1, i2, i3⟩ := hc.insert hkey a avail
          simp only [i1]
          exact i2
  have gen : ∀ (evs : List (Event A E)) (c : CState A K V), CInv m key f c.st → CInv m key f (crun m key f c evs).1.st := by
    intro evs
    induction evs with
    | nil => intro c hc; exact hc
    | cons ev evs ih => intro c hc; exact ih _ (hstep c ev hc)
  exact gen evs _ (CInv.init m key f)

theorem info_split {seen new l₁ l₂ : List (Seen A V E)} {t : Nat} {i : Info} (hnew : ∀ x ∈ new, notInfo x = true)
    (h : seen ++ new = l₁ ++ .info t i :: l₂) : ∃ l₃, seen = l₁ ++ .info t i :: l₃ := by
  rcases List.append_eq_append_iff.1 h with ⟨as, h1, h2⟩ | ⟨bs, h1, h2⟩
  · have : Seen.info t i ∈ new := by rw [h2]; simp
    cases hnew _ this
  · cases bs with
    | nil =>
      have : Seen.info t i ∈ new := by rw [← List.nil_append new, ← h2]; simp
      cases hnew _ this
    | cons b bs =>
      rw [List.cons_append] at h2
      obtain ⟨rfl, -⟩ := List.cons.inj h2
      exact ⟨bs, h1⟩

/-- The end of a block, or a failure: one event of the execution with undivided phases. -/
theorem Inv.event {m : Mode} {key : A → K} {f : A → V} {s : Sys A K V E} {evs : List (Event A E)} (h : Inv m key f s evs) (t : Nat)
    (ev : Event A E) (st : State K V) (holder : Option Nat) (frs : List (Frame A K V)) (new : List (Seen A V E))
    (hnew : ∀ x ∈ new, notInfo x = true) (htold : new = told [(ev, (cstep m key f (phases m key f evs).1 ev).2)])
    (hpend : ∀ t', pendingArgs (cstep m key f (phases m key f evs).1 ev).1.pending t' =
      if t' = t then frs.filterMap pend else pendingArgs (phases m key f evs).1.pending t')
    (h2 : ∀ fr ∈ frs, ∃ a l, fr = .call a .computing l)
    (hcase : holder = none ∧ s.holder = some t ∧ st = (cstep m key f (phases m key f evs).1 ev).1.st ∨
      holder = s.holder ∧ some t ≠ s.holder ∧ st = s.st ∧ (cstep m key f (phases m key f evs).1 ev).1.st = (phases m key f evs).1.st) :
    Inv m key f (⟨st, holder, Function.update s.threads t frs, s.seen ++ new⟩ : Sys A K V E) (evs ++ [ev]) := by
  have hst : (phases m key f (evs ++ [ev])).1 = (cstep m key f (phases m key f evs).1 ev).1 := (crun_snoc m key f evs ev _).1
  refine ⟨?_, ?_, update_tail _ _ _ h.lower fun fr hfr => h2 fr (List.mem_of_mem_tail hfr), update_all (P := fun _ => ResultOK f) _ _ _ h.results ?_,
    ?_, ?_, ?_, ?_⟩
  · show (s.seen ++ new).filter notInfo = _
    rw [List.filter_append, h.log, List.filter_eq_self.2 hnew, shown_snoc, ← htold]
  · intro t'
    rw [hst, hpend]
    show (Function.update s.threads t frs t').filterMap pend = _
    by_cases e : t' = t
    · subst e; rw [Function.update_self, if_pos rfl]
    · rw [Function.update_of_ne e, if_neg e]; exact h.pending t'
  · intro fr hfr
    obtain ⟨a, l, rfl⟩ := h2 fr hfr
    trivial
  · intro t' ht'
    show ∀ fr ∈ Function.update s.threads t frs t', inside fr = false
    by_cases e : t' = t
    · subst e; rw [Function.update_self]
      intro fr hfr
      obtain ⟨a, l, rfl⟩ := h2 fr hfr
      rfl
    · rw [Function.update_of_ne e]
      refine h.outside t' ?_
      rcases hcase with ⟨-, h1, -⟩ | ⟨h1, -⟩
      · rw [h1]; intro hh; exact e (Option.some.inj hh)
      · rw [← h1]; exact ht'
  · intro h0
    rw [hst]
    rcases hcase with ⟨-, -, h1⟩ | ⟨h1, -, h3, h4⟩
    · exact h1
    · show st = _
      rw [h3, h4]
      exact h.free (h1.symm.trans h0)
  · intro t' ht'
    rcases hcase with ⟨h1, -, -⟩ | ⟨h1, h0, h3, h4⟩
    · exact absurd (h1.symm.trans ht') (by simp)
    · have ht2 : s.holder = some t' := h1.symm.trans ht'
      have e : t' ≠ t := by rintro rfl; exact h0 ht2.symm
      obtain ⟨fr, rest, e', g1, g2, g3, g4, g5⟩ := h.held t' ht2
      refine ⟨fr, rest, e', ?_, g2, g3, g4, ?_⟩
      · show Function.update s.threads t frs t' = _
        rw [Function.update_of_ne e, g1]
      · rw [hst, h4]
        show (micro m key)^[12] (st, fr) = _
        rw [h3, g5]
  · intro l₁ t' i l₂ hl
    obtain ⟨l₃, h3⟩ := info_split hnew hl
    exact h.infos l₁ t' i l₃ h3

theorem pendingOf_frames {m : Mode} {key : A → K} {f : A → V} {s : Sys A K V E} {evs : List (Event A E)} (h : Inv m key f s evs) (t : Nat)
    (fr : Frame A K V) (rest : List (Frame A K V)) (hth : s.threads t = fr :: rest) (a : A) (ha : pend fr = some a) :
    pendingOf (phases m key f evs).1.pending t = some a ∧
    pendingArgs (phases m key f evs).1.pending t = a :: rest.filterMap pend := by
  have := h.pending t
  rw [hth, List.filterMap_cons, ha] at this
  dsimp only at this
  rw [pendingOf_eq, ← this]
  exact ⟨rfl, rfl⟩

/-- The last step of a block. -/
theorem fixed_iter {α : Type} (g : α → α) (x : α) (h : g x = x) (n : Nat) : g^[n] x = x := Function.iterate_fixed h n

theorem atUser_spec {m : Mode} {key : A → K} {f : A → V} {s : Sys A K V E} {evs : List (Event A E)} (h : Inv m key f s evs) (t : Nat)
    (hu : atUser (s.threads t) = true) : some t ≠ s.holder ∧ ∀ fr ∈ s.threads t, ∃ a l, fr = .call a .computing l := by
  constructor
  · intro ht
    obtain ⟨fr, rest, e, g1, g2, -⟩ := h.held t ht.symm
    rw [g1] at hu
    cases fr with
    | call a pc l => cases pc <;> first | (cases g2; done) | (cases hu; done)
    | clear pc => cases hu
    | info pc i => cases hu
  · have hlow := h.lower t
    cases hth : s.threads t with
    | nil => intro fr hfr; cases hfr
    | cons fr rest =>
      rw [hth] at hu hlow
      intro fr' hfr'
      rcases List.mem_cons.1 hfr' with rfl | hfr'
      · cases fr' with
        | call a pc l => cases pc <;> first | exact ⟨a, l, rfl⟩ | cases hu
        | clear pc => cases hu
        | info pc i => cases hu
      · exact hlow fr' hfr'

theorem entering_spec (f : A → V) (avail : Nat) (fr fr' : Frame A K V) (h : entering avail fr = some fr') (hr : ResultOK f fr) :
    inside fr = false ∧ inside fr' = true ∧ Entry f fr' ∧ pend fr' = pend fr ∧ ResultOK f fr' := by
  cases fr with
  | call a pc l => cases pc <;> first | cases h | skip
                   · exact ⟨rfl, rfl, trivial, rfl, trivial⟩
                   · exact ⟨rfl, rfl, hr, rfl, trivial⟩
  | clear pc => cases pc <;> first | cases h | skip
                exact ⟨rfl, rfl, trivial, rfl, trivial⟩
  | info pc i => cases pc <;> first | cases h | skip
                 exact ⟨rfl, rfl, trivial, rfl, trivial⟩

theorem leaving_inside (t : Nat) (fr : Frame A K V) (x : List (Frame A K V) × List (Seen A V E)) (h : leaving t fr = some x) : inside fr = true := by
  cases fr with
  | call a pc l => cases pc <;> first | rfl | cases h
  | clear pc => cases pc <;> first | rfl | cases h
  | info pc i => cases pc <;> first | rfl | cases h

theorem middle_inside (avail t : Nat) (fr : Frame A K V) (h1 : entering avail fr = none) (hc : ∀ a l, fr ≠ .call a .computing l) : inside fr = true := by
  cases fr with
  | call a pc l => cases pc <;> first | rfl | exact absurd rfl (hc a l) | (cases h1; done)
  | clear pc => cases pc <;> first | rfl | cases h1
  | info pc i => cases pc <;> first | rfl | cases h1

theorem inside_resultOK (f : A → V) (fr : Frame A K V) (h : inside fr = true) : ResultOK f fr := by
  cases fr with
  | call a pc l => cases pc <;> first | trivial | cases h
  | clear pc => trivial
  | info pc i => trivial

/-- After twelve steps a block is at its end. -/
theorem block_ends {m : Mode} (hm : m.isLink = true) {key : A → K} {f : A → V} (hkey : ∀ a b, key a = key b → f a = f b) {s : State K V}
    (h : CInv m key f s) (t : Nat) (e : Frame A K V) (he : Entry f e) :
    ∃ x, leaving (E := E) t ((micro m key)^[12] (s, e)).2 = some x := by
  cases e with
  | call a pc l =>
    cases pc <;> first | cases he | skip
    · rcases block_get hm h a l with ⟨v, l', -, -, h1⟩ | ⟨l', -, h1⟩ <;> rw [h1] <;> exact ⟨_, rfl⟩
    · obtain ⟨s', i1, -⟩ := h.insert hkey a l.avail
      obtain ⟨l', -, h1⟩ := block_test hm a (f a) l he i1
      rw [h1]; exact ⟨_, rfl⟩
  | clear pc =>
    cases pc <;> first | cases he | skip
    rw [block_clear]; exact ⟨_, rfl⟩
  | info pc i =>
    cases pc <;> first | cases he | skip
    rw [block_info]; exact ⟨_, rfl⟩

/-- The invariant is kept. -/
theorem Inv.step {m : Mode} (hm : m.isLink = true) {key : A → K} {f : A → V} (hkey : ∀ a b, key a = key b → f a = f b)
    {s s' : Sys A K V E} {evs : List (Event A E)} (h : Inv m key f s evs) (t : Nat) (x : Act A E) (hs : step m key f s t x = some s') :
    ∃ evs', Inv m key f s' evs' := by
  have hbegin : ∀ fr : Frame A K V, pend fr = none → inside fr = false → ResultOK f fr → atUser (s.threads t) = true →
      Inv m key f (⟨s.st, s.holder, Function.update s.threads t (fr :: s.threads t), s.seen⟩ : Sys A K V E) evs := by
    intro fr h1 h2 h3 hu
    obtain ⟨u1, u2⟩ := atUser_spec h t hu
    refine h.quiet t u1 _ ?_ u2 ?_ ?_
    · rw [List.filterMap_cons, h1]
    · intro fr' hfr'
      rcases List.mem_cons.1 hfr' with rfl | hfr'
      · exact h3
      · exact h.results t fr' hfr'
    · intro fr' hfr'
      rcases List.mem_cons.1 hfr' with rfl | hfr'
      · exact h2
      · exact h.outside t u1 fr' hfr'
  cases x with
  | call a =>
    simp only [Locks.step] at hs
    split at hs
    · rename_i hu
      obtain rfl := Option.some.inj hs
      exact ⟨evs, hbegin _ rfl rfl trivial hu⟩
    · cases hs
  | clear =>
    simp only [Locks.step] at hs
    split at hs
    · rename_i hu
      obtain rfl := Option.some.inj hs
      exact ⟨evs, hbegin _ rfl rfl trivial hu⟩
    · cases hs
  | info =>
    simp only [Locks.step] at hs
    split at hs
    · rename_i hu
      obtain rfl := Option.some.inj hs
      exact ⟨evs, hbegin _ rfl rfl trivial hu⟩
    · cases hs
  | fail e =>
    simp only [Locks.step] at hs
    split at hs
    · rename_i a l rest hth
      obtain rfl := Option.some.inj hs
      have hu : atUser (s.threads t) = true := by rw [hth]; rfl
      obtain ⟨u1, u2⟩ := atUser_spec h t hu
      obtain ⟨p1, p2⟩ := pendingOf_frames h t _ rest hth a rfl
      have hc : cstep m key f (phases m key f evs).1 (.finish t (some e) 0) =
          (⟨(phases m key f evs).1.st, pendingDrop (phases m key f evs).1.pending t⟩, some (a, .raised e)) := by
        simp only [cstep, p1]
      refine ⟨_, h.event t (.finish t (some e) 0) s.st s.holder rest [.raised t a e] (by simp [notInfo]) ?_ ?_ ?_ (.inr ⟨rfl, u1, rfl, ?_⟩)⟩
      · rw [hc]; rfl
      · intro t'
        rw [hc]
        dsimp only
        rw [pendingArgs_drop]
        by_cases e' : t' = t
        · subst e'; rw [if_pos rfl, if_pos rfl, p2]; rfl
        · rw [if_neg (Ne.symm e'), if_neg e']
      · intro fr hfr
        exact u2 fr (by rw [hth]; exact List.mem_cons_of_mem _ hfr)
      · rw [hc]
    · cases hs
  | next avail =>
    cases hth : s.threads t with
    | nil => simp only [Locks.step, hth] at hs; cases hs
    | cons fr rest =>
      have hlow := h.lower t
      rw [hth] at hlow
      by_cases hcomp : ∃ a l, fr = .call a .computing l
      · obtain ⟨a, l, rfl⟩ := hcomp
        simp only [Locks.step, hth] at hs
        obtain rfl := Option.some.inj hs
        obtain ⟨u1, u2⟩ := atUser_spec h t (by rw [hth]; rfl)
        refine ⟨evs, h.quiet t u1 _ ?_ hlow ?_ ?_⟩
        · rw [hth]; rfl
        · intro fr' hfr'
          rcases List.mem_cons.1 hfr' with rfl | hfr'
          · rfl
          · exact h.results t fr' (by rw [hth]; exact List.mem_cons_of_mem _ hfr')
        · intro fr' hfr'
          rcases List.mem_cons.1 hfr' with rfl | hfr'
          · rfl
          · exact h.outside t u1 fr' (by rw [hth]; exact List.mem_cons_of_mem _ hfr')
      · have hs0 : (match entering avail fr, leaving (E := E) t fr with
            | some fr', _ => if s.holder = none then some (⟨s.st, some t, Function.update s.threads t (fr' :: rest), s.seen⟩ : Sys A K V E) else none
            | none, some (left, seen) => some ⟨s.st, none, Function.update s.threads t (left ++ rest), s.seen ++ seen⟩
            | none, none => some ⟨(micro m key (s.st, fr)).1, s.holder, Function.update s.threads t ((micro m key (s.st, fr)).2 :: rest), s.seen⟩) =
            some s' := by
          rw [← hs]
          simp only [Locks.step, hth]
          cases fr with
          | call a pc l => cases pc <;> first | rfl | exact absurd ⟨_, _, rfl⟩ hcomp
          | clear pc => rfl
          | info pc i => rfl
        clear hs
        have hrest : ∀ fr ∈ rest, ResultOK f fr ∧ inside fr = false := by
          intro fr' hfr'
          obtain ⟨a, l, rfl⟩ := hlow fr' hfr'
          exact ⟨trivial, rfl⟩
        cases hent : entering avail fr with
        | some fr' =>
          rw [hent] at hs0
          dsimp only at hs0
          split at hs0
          · rename_i hfree
            obtain rfl := Option.some.inj hs0
            obtain ⟨g1, g2, g3, g4, g5⟩ := entering_spec f avail fr fr' hent (h.results t fr (by rw [hth]; simp))
            refine ⟨evs, h.log, ?_, update_tail _ _ _ h.lower hlow, update_all (P := fun _ => ResultOK f) _ _ _ h.results ?_, ?_, ?_, ?_, h.infos⟩
            · intro t'
              show (Function.update s.threads t (fr' :: rest) t').filterMap pend = _
              rw [filterMap_update _ _ _ _ (by rw [hth, List.filterMap_cons, List.filterMap_cons, g4])]
              exact h.pending t'
            · intro fr'' hfr''
              rcases List.mem_cons.1 hfr'' with rfl | hfr''
              · exact g5
              · exact (hrest _ hfr'').1
            · intro t' ht'
              have e' : t' ≠ t := by rintro rfl; exact ht' rfl
              show ∀ fr ∈ Function.update s.threads t (fr' :: rest) t', inside fr = false
              rw [Function.update_of_ne e']
              exact h.outside t' (by rw [hfree]; simp)
            · intro h0; cases h0
            · intro t' ht'
              obtain rfl : t = t' := Option.some.inj ht'
              refine ⟨fr', rest, fr', Function.update_self _ _ _, g2, g3, rfl, ?_⟩
              show (micro m key)^[12] (s.st, fr') = _
              rw [h.free hfree]
          · cases hs0
        | none =>
          have hin := middle_inside avail t fr hent (fun a l e => hcomp ⟨a, l, e⟩)
          have hhold : s.holder = some t := by
            by_contra hne
            have := h.outside t (fun e => hne e.symm) fr (by rw [hth]; simp)
            rw [hin] at this; cases this
          obtain ⟨fr0, rest0, e, g1, g2, g3, g4, g5⟩ := h.held t hhold
          rw [hth] at g1
          obtain ⟨rfl, rfl⟩ := List.cons.inj g1
          rw [hent] at hs0
          have hci := phases_inv m key f hkey evs
          obtain ⟨x0, hx0⟩ := block_ends (E := E) hm hkey hci t e g3
          have hfix : micro m key ((micro m key)^[12] ((phases m key f evs).1.st, e)) = (micro m key)^[12] ((phases m key f evs).1.st, e) :=
            micro_left (E := E) m key _ t _ x0 hx0
          cases hlv : leaving (E := E) t fr with
          | none =>
            rw [hlv] at hs0
            obtain rfl := Option.some.inj hs0
            refine ⟨evs, h.log, ?_, update_tail _ _ _ h.lower hlow, update_all (P := fun _ => ResultOK f) _ _ _ h.results ?_, ?_, ?_, ?_, h.infos⟩
            · intro t'
              show (Function.update s.threads t ((micro m key (s.st, fr)).2 :: rest) t').filterMap pend = _
              rw [filterMap_update _ _ _ _ (by rw [hth, List.filterMap_cons, List.filterMap_cons, micro_pend])]
              exact h.pending t'
            · intro fr'' hfr''
              rcases List.mem_cons.1 hfr'' with rfl | hfr''
              · exact inside_resultOK f _ (micro_inside m key s.st fr hin)
              · exact (hrest _ hfr'').1
            · intro t' ht'
              have e' : t' ≠ t := by rintro rfl; exact ht' hhold.symm
              show ∀ fr' ∈ Function.update s.threads t ((micro m key (s.st, fr)).2 :: rest) t', inside fr' = false
              rw [Function.update_of_ne e']
              exact h.outside t' ht'
            · intro h0
              exact absurd (hhold.symm.trans h0) (by simp)
            · intro t' ht'
              obtain rfl : t = t' := Option.some.inj (hhold.symm.trans ht')
              refine ⟨_, rest, e, Function.update_self _ _ _, micro_inside m key s.st fr hin, g3, (micro_pend m key s.st fr).trans g4, ?_⟩
              show (micro m key)^[12] (micro m key (s.st, fr)) = _
              rw [← Function.iterate_succ_apply, Function.iterate_succ_apply', g5, hfix]
          | some x =>
            obtain ⟨left, new⟩ := x
            rw [hlv] at hs0
            obtain rfl := Option.some.inj hs0
            have hend : (s.st, fr) = (micro m key)^[12] ((phases m key f evs).1.st, e) := by
              rw [← g5, fixed_iter _ _ (micro_left m key s.st t fr _ hlv)]
            have hrestp := h.pending t
            rw [hth, List.filterMap_cons] at hrestp
            cases e with
            | call a pc l =>
              cases pc <;> first | cases g3 | skip
              · rcases block_get hm hci a l with ⟨v, l', e1, e2, e3⟩ | ⟨l', e1, e3⟩
                · rw [e3] at hend
                  obtain ⟨hst, rfl⟩ := Prod.mk.inj hend
                  obtain ⟨rfl, rfl⟩ := Prod.mk.inj (Option.some.inj hlv)
                  have hc : cstep m key f (phases m key f evs).1 (Event.start (E := E) t a) =
                      (⟨(lookupPhase m (phases m key f evs).1.st (key a)).1, (phases m key f evs).1.pending⟩, some (a, .ok v false)) := by
                    simp only [cstep]
                    generalize lookupPhase m (phases m key f evs).1.st (key a) = r at e1 ⊢
                    obtain ⟨r1, r2⟩ := r
                    obtain rfl := e1
                    rfl
                  refine ⟨_, h.event t (.start t a) s.st none ([] ++ rest) _ (by simp [notInfo]) ?_ ?_ hlow (.inl ⟨rfl, hhold, ?_⟩)⟩
                  · rw [hc, e2]; rfl
                  · intro t'
                    rw [hc]
                    by_cases e' : t' = t
                    · subst e'; rw [if_pos rfl]; exact hrestp.symm
                    · rw [if_neg e']
                  · rw [hc, hst]
                · rw [e3] at hend
                  obtain ⟨hst, rfl⟩ := Prod.mk.inj hend
                  obtain ⟨rfl, rfl⟩ := Prod.mk.inj (Option.some.inj hlv)
                  have hc : cstep m key f (phases m key f evs).1 (Event.start (E := E) t a) =
                      (⟨(lookupPhase m (phases m key f evs).1.st (key a)).1, (t, a) :: (phases m key f evs).1.pending⟩, none) := by
                    simp only [cstep]
                    generalize lookupPhase m (phases m key f evs).1.st (key a) = r at e1 ⊢
                    obtain ⟨r1, r2⟩ := r
                    obtain rfl := e1
                    rfl
                  refine ⟨_, h.event t (.start t a) s.st none ([Frame.call a .computing l'] ++ rest) _ (by simp) ?_ ?_ ?_ (.inl ⟨rfl, hhold, ?_⟩)⟩
                  · rw [hc]; rfl
                  · intro t'
                    rw [hc]
                    by_cases e' : t' = t
                    · subst e'; rw [if_pos rfl]
                      have : pendingArgs ((t', a) :: (phases m key f evs).1.pending) t' = a :: pendingArgs (phases m key f evs).1.pending t' := by
                        simp [pendingArgs]
                      show pendingArgs ((t', a) :: (phases m key f evs).1.pending) t' = _
                      rw [this, ← hrestp]; rfl
                    · rw [if_neg e']
                      simp [pendingArgs, Ne.symm e']
                  · intro fr' hfr'
                    rcases List.mem_cons.1 hfr' with rfl | hfr'
                    · exact ⟨a, l', rfl⟩
                    · exact hlow fr' hfr'
                  · rw [hc, hst]
              · obtain ⟨s2, i1, -⟩ := hci.insert hkey a l.avail
                obtain ⟨l', e2, e3⟩ := block_test hm a (f a) l g3 i1
                rw [e3] at hend
                obtain ⟨hst, rfl⟩ := Prod.mk.inj hend
                obtain ⟨rfl, rfl⟩ := Prod.mk.inj (Option.some.inj hlv)
                obtain ⟨p1, p2⟩ := pendingOf_frames h t _ rest hth a rfl
                have hc : cstep m key f (phases m key f evs).1 (Event.finish (E := E) t none l.avail) =
                    (⟨s2, pendingDrop (phases m key f evs).1.pending t⟩, some (a, .ok (f a) true)) := by
                  simp only [cstep, p1, i1]
                refine ⟨_, h.event t (.finish t none l.avail) s.st none ([] ++ rest) _ (by simp [notInfo]) ?_ ?_ hlow (.inl ⟨rfl, hhold, ?_⟩)⟩
                · rw [hc, e2]; rfl
                · intro t'
                  rw [hc]
                  dsimp only
                  rw [pendingArgs_drop]
                  by_cases e' : t' = t
                  · subst e'; rw [if_pos rfl, if_pos rfl, p2]; rfl
                  · rw [if_neg (Ne.symm e'), if_neg e']
                · rw [hc, hst]
            | clear pc =>
              cases pc <;> first | cases g3 | skip
              rw [block_clear] at hend
              obtain ⟨hst, rfl⟩ := Prod.mk.inj hend
              obtain ⟨rfl, rfl⟩ := Prod.mk.inj (Option.some.inj hlv)
              refine ⟨_, h.event t .clear s.st none ([] ++ rest) _ (by simp [notInfo]) rfl ?_ hlow (.inl ⟨rfl, hhold, ?_⟩)⟩
              · intro t'
                by_cases e' : t' = t
                · subst e'; rw [if_pos rfl]; exact hrestp.symm
                · rw [if_neg e']; rfl
              · rw [hst]; rfl
            | info pc i =>
              cases pc <;> first | cases g3 | skip
              rw [block_info] at hend
              obtain ⟨hst, rfl⟩ := Prod.mk.inj hend
              obtain ⟨rfl, rfl⟩ := Prod.mk.inj (Option.some.inj hlv)
              refine ⟨evs, ?_, ?_, update_tail _ _ _ h.lower fun fr hfr => hlow fr (List.mem_of_mem_tail hfr),
                update_all (P := fun _ => ResultOK f) _ _ _ h.results fun fr hfr => (hrest fr hfr).1, ?_, fun _ => hst, ?_, ?_⟩
              · show (s.seen ++ [_]).filter notInfo = _
                rw [List.filter_append, h.log]
                exact List.append_nil _
              · intro t'
                show (Function.update s.threads t ([] ++ rest) t').filterMap pend = _
                rw [filterMap_update _ _ _ _ (by rw [hth]; rfl)]
                exact h.pending t'
              · intro t' ht'
                show ∀ fr' ∈ Function.update s.threads t ([] ++ rest) t', inside fr' = false
                by_cases e' : t' = t
                · subst e'; rw [Function.update_self]; exact fun fr' hfr' => (hrest fr' hfr').2
                · rw [Function.update_of_ne e']
                  exact h.outside t' (by rw [hhold]; intro hh; exact e' (Option.some.inj hh))
              · intro t' ht'; cases ht'
              · intro l₁ t' i' l₂ hl
                rcases List.eq_nil_or_concat l₂ with rfl | ⟨l₃, y, rfl⟩
                · obtain ⟨h1, h2⟩ := List.append_inj' hl rfl
                  injection h2 with h2 _
                  injection h2 with h3 h4
                  exact ⟨evs, by rw [← h1]; exact h.log, h4.symm⟩
                · have : s.seen ++ [Seen.info t (cacheInfo (phases m key f evs).1.st)] = (l₁ ++ .info t' i' :: l₃) ++ [y] := by
                    rw [List.concat_eq_append] at hl
                    simpa using hl
                  exact h.infos l₁ t' i' l₃ (List.append_inj' this rfl).1

theorem exec_inv {m : Mode} (hm : m.isLink = true) {key : A → K} {f : A → V} (hkey : ∀ a b, key a = key b → f a = f b)
    (l : List (Nat × Act A E)) : ∀ (s s' : Sys A K V E) (evs : List (Event A E)), Inv m key f s evs → exec m key f s l = some s' →
      ∃ evs', Inv m key f s' evs' := by
  induction l with
  | nil => intro s s' evs h hs; obtain rfl := Option.some.inj hs; exact ⟨evs, h⟩
  | cons x l ih =>
    intro s s' evs h hs
    obtain ⟨t, x⟩ := x
    obtain ⟨s1, h1, h2⟩ := Option.bind_eq_some_iff.1 hs
    obtain ⟨evs1, i1⟩ := h.step hm hkey t x h1
    exact ih s1 s' evs1 i1 h2

theorem endedSince_filter (b : Bool) (l : List (Seen A V E)) : endedSince b (l.filter notInfo) = endedSince b l := by
  have gen : ∀ (l : List (Seen A V E)) (n : Nat), (l.filter notInfo).foldl (fun n x => match x with
      | .cleared => 0
      | .value _ _ _ b' => if b' = b then n + 1 else n
      | _ => n) n = l.foldl (fun n x => match x with
      | .cleared => 0
      | .value _ _ _ b' => if b' = b then n + 1 else n
      | _ => n) n := by
    intro l
    induction l with
    | nil => intro n; rfl
    | cons x l ih => intro n; cases x <;> exact ih _
  exact gen l 0

theorem endedSince_append (b : Bool) (l l' : List (Seen A V E)) : endedSince b (l ++ l') = l'.foldl (fun n x => match x with
    | .cleared => 0
    | .value _ _ _ b' => if b' = b then n + 1 else n
    | _ => n) (endedSince b l) := by
  unfold endedSince
  rw [List.foldl_append]

theorem lookup_counts {m : Mode} (hm : m.isLink = true) (s s1 : State K V) (k : K) (r : Option V) (h : lookupPhase m s k = (s1, r)) :
    s1.misses = s.misses ∧ s1.hits = s.hits + if r.isSome then 1 else 0 := by
  have gen : (match s.cache.get k with
    | some (.link b) => match s.result b with
      | some v => ({ moveToFront s b with hits := (moveToFront s b).hits + 1 }, some v)
      | none => (s, none)
    | _ => (s, none)) = (s1, r) := by
    cases m with
    | zero => cases hm
    | unbounded => cases hm
    | memory n => exact h
    | bounded n => exact h
  split at gen
  · split at gen
    · obtain ⟨rfl, rfl⟩ := Prod.mk.inj gen; exact ⟨rfl, rfl⟩
    · obtain ⟨rfl, rfl⟩ := Prod.mk.inj gen; exact ⟨rfl, rfl⟩
  · obtain ⟨rfl, rfl⟩ := Prod.mk.inj gen; exact ⟨rfl, rfl⟩

theorem insert_counts {m : Mode} (hm : m.isLink = true) (s s' : State K V) (k : K) (v : V) (avail : Nat) (h : insertPhase m s k v avail = some s') :
    s'.hits = s.hits ∧ s'.misses = s.misses + 1 := by
  have hev : ∀ s2, evictInsert s k v = some s2 → s2.hits = s.hits ∧ s2.misses = s.misses := by
    intro s2 h2
    unfold evictInsert at h2
    dsimp only at h2
    split at h2
    · cases h2
    · split at h2
      · cases h2
      · obtain rfl := Option.some.inj h2
        exact ⟨rfl, rfl⟩
  have gen : ∀ fu : State K V → Bool, (if (s.cache.get k).isSome then some { s with misses := s.misses + 1 }
      else if s.full then
        match evictInsert s k v with
        | none => none
        | some s' => some { s' with misses := s'.misses + 1 }
      else some { freshInsert s k v with full := fu (freshInsert s k v), misses := (freshInsert s k v).misses + 1 }) = some s' →
      s'.hits = s.hits ∧ s'.misses = s.misses + 1 := by
    intro fu h
    split at h
    · obtain rfl := Option.some.inj h; exact ⟨rfl, rfl⟩
    · split at h
      · cases h2 : evictInsert s k v with
        | none => rw [h2] at h; cases h
        | some s2 =>
          rw [h2] at h
          obtain rfl := Option.some.inj h
          exact ⟨(hev s2 h2).1, congrArg (· + 1) (hev s2 h2).2⟩
      · obtain rfl := Option.some.inj h
        exact ⟨rfl, rfl⟩
  cases m with
  | zero => cases hm
  | unbounded => cases hm
  | memory n => exact gen (fun s' => fullAfter (.memory n) s'.cache.length avail) h
  | bounded n => exact gen (fun s' => fullAfter (.bounded n) s'.cache.length avail) h

theorem counts {m : Mode} (hm : m.isLink = true) (key : A → K) (f : A → V) (evs : List (Event A E)) :
    (phases m key f evs).1.st.hits = endedSince true (shown m key f evs) ∧
    (phases m key f evs).1.st.misses = endedSince false (shown m key f evs) := by
  induction evs using List.reverseRecOn with
  | nil => exact ⟨rfl, rfl⟩
  | append_singleton evs ev ih =>
    obtain ⟨i1, i2⟩ := ih
    rw [shown_snoc, (crun_snoc m key f evs ev _).1, endedSince_append, endedSince_append, ← i1, ← i2]
    show (cstep m key f (phases m key f evs).1 ev).1.st.hits = _ ∧ (cstep m key f (phases m key f evs).1 ev).1.st.misses = _
    generalize (phases m key f evs).1 = c
    cases ev with
    | clear => exact ⟨rfl, rfl⟩
    | start t a =>
      simp only [cstep]
      rcases hl : lookupPhase m c.st (key a) with ⟨s1, r⟩
      obtain ⟨h1, h2⟩ := lookup_counts hm c.st s1 (key a) r hl
      cases r with
      | none => exact ⟨h2, h1⟩
      | some v => exact ⟨h2, h1⟩
    | finish t fail avail =>
      simp only [cstep]
      cases hp : pendingOf c.pending t with
      | none => exact ⟨rfl, rfl⟩
      | some a =>
        cases fail with
        | some e => exact ⟨rfl, rfl⟩
        | none =>
          dsimp only
          cases hi : insertPhase m c.st (key a) (f a) avail with
          | none => exact ⟨rfl, rfl⟩
          | some s2 => exact insert_counts hm _ _ _ _ _ hi

/-! ## The property -/

/-- C153. Every execution in single reads and writes shows the same as an execution with undivided phases, in the same order; and whenever nobody holds the
lock, the shared variables are the same, too. -/
theorem C153_atomic (m : Mode) (hm : m.isLink = true) (key : A → K) (f : A → V) (hkey : ∀ a b, key a = key b → f a = f b)
    (l : List (Nat × Act A E)) (s : Sys A K V E) (h : exec m key f Sys.init l = some s) :
    ∃ evs : List (Event A E), let r := crun m key f (⟨State.init, []⟩ : CState A K V) evs
      s.seen.filter notInfo = told (evs.zip (r.2.map Prod.fst)) ∧ (s.holder = none → s.st = r.1.st) := by
  obtain ⟨evs, hi⟩ := exec_inv hm hkey l _ s [] (Inv.init m key f) h
  exact ⟨evs, hi.log, hi.free⟩

/-- C153. However the threads are scheduled between single reads and writes: every call that ends with a value ends with the right one, and no call ends
with a `KeyError`. -/
theorem C153_values (m : Mode) (hm : m.isLink = true) (key : A → K) (f : A → V) (hkey : ∀ a b, key a = key b → f a = f b)
    (l : List (Nat × Act A E)) (s : Sys A K V E) (h : exec m key f Sys.init l = some s) :
    (∀ t a v found, Seen.value t a v found ∈ s.seen → v = some (f a)) ∧ ∀ t a, Seen.keyError t a ∉ s.seen := by
  obtain ⟨evs, hi⟩ := exec_inv hm hkey l _ s [] (Inv.init m key f) h
  have hok := (C10_concurrent_safe m key f hkey evs).1
  have hmem : ∀ x ∈ s.seen, notInfo x = true → ∃ y ∈ evs.zip ((phases m key f evs).2.map Prod.fst), x ∈ told [y] ∧ EventOK f y.1 y.2 := by
    intro x hx hn
    have : x ∈ shown m key f evs := by rw [← hi.log]; exact List.mem_filter.2 ⟨hx, hn⟩
    obtain ⟨y, hy, hxy⟩ := List.mem_flatMap.1 this
    refine ⟨y, hy, List.mem_flatMap.2 ⟨y, by simp, hxy⟩, ?_⟩
    have hz : List.Forall₂ (fun ev x => EventOK f ev x) evs ((phases m key f evs).2.map Prod.fst) := List.forall₂_map_right_iff.2 hok
    exact (List.forall₂_iff_zip.1 hz).2 hy
  constructor
  · intro t a v found hx
    obtain ⟨⟨ev, o⟩, -, h1, h2⟩ := hmem _ hx rfl
    cases ev with
    | clear => simp [told] at h1
    | start t' a' =>
      match o, h1, h2 with
      | none, h1, _ => simp [told] at h1
      | some (b, .ok w true), h1, h2 => cases h2
      | some (b, .ok w false), h1, h2 =>
        simp only [told, List.flatMap_cons, List.flatMap_nil, List.append_nil, List.mem_singleton, Seen.value.injEq] at h1
        obtain ⟨-, rfl, rfl, -⟩ := h1
        rw [h2.2, h2.1]
      | some (b, .raised e), h1, h2 => cases h2
      | some (b, .keyError), h1, h2 => cases h2
    | finish t' fail avail =>
      match fail, o, h1, h2 with
      | _, none, h1, _ => simp [told] at h1
      | none, some (b, .ok w true), h1, h2 =>
        simp only [told, List.flatMap_cons, List.flatMap_nil, List.append_nil, List.mem_singleton, Seen.value.injEq] at h1
        obtain ⟨-, rfl, rfl, -⟩ := h1
        exact congrArg some h2
      | none, some (b, .ok w false), h1, h2 => cases h2
      | some e, some (b, .ok w true), h1, h2 => cases h2
      | some e, some (b, .ok w false), h1, h2 => cases h2
      | _, some (b, .raised e), h1, h2 => simp [told] at h1
      | _, some (b, .keyError), h1, h2 => simp [told] at h1
  · intro t a hx
    obtain ⟨⟨ev, o⟩, -, h1, h2⟩ := hmem _ hx rfl
    cases ev with
    | clear => simp [told] at h1
    | start t' a' =>
      match o, h1, h2 with
      | none, h1, _ => simp [told] at h1
      | some (b, .ok w c), h1, h2 => simp [told] at h1
      | some (b, .raised e), h1, h2 => cases h2
      | some (b, .keyError), h1, h2 => cases h2
    | finish t' fail avail =>
      match o, h1, h2 with
      | none, h1, _ => simp [told] at h1
      | some (b, .ok w c), h1, h2 => simp [told] at h1
      | some (b, .raised e), h1, h2 => simp [told] at h1
      | some (b, .keyError), h1, h2 => cases fail <;> cases h2

/-- C153. Whatever the scheduling, `cache_info()` reports exactly the numbers of calls that have ended with and without the cache since the last clear, and a
size within the limit. -/
theorem C153_counters (m : Mode) (hm : m.isLink = true) (key : A → K) (f : A → V) (hkey : ∀ a b, key a = key b → f a = f b)
    (l : List (Nat × Act A E)) (s : Sys A K V E) (h : exec m key f Sys.init l = some s) (before after : List (Seen A V E)) (t : Nat) (i : Info)
    (hs : s.seen = before ++ .info t i :: after) :
    i.hits = endedSince true before ∧ i.misses = endedSince false before ∧ ∀ n, m = .bounded n → (i.currsize : Int) ≤ max n 1 := by
  obtain ⟨evs, hi⟩ := exec_inv hm hkey l _ s [] (Inv.init m key f) h
  obtain ⟨evs', h1, h2⟩ := hi.infos before t i after hs
  obtain ⟨c1, c2⟩ := counts hm key f evs'
  rw [← h1, endedSince_filter] at c1 c2
  subst h2
  exact ⟨c1, c2, (C10_concurrent_safe m key f hkey evs').2.2.1⟩

/-- C153. Nobody waits for ever: while the lock is free every thread which is in a call can go on; and a thread that holds the lock can go on, and has given it
back after at most thirteen steps, whatever the other threads have done. -/
theorem C153_progress (m : Mode) (hm : m.isLink = true) (key : A → K) (f : A → V) (hkey : ∀ a b, key a = key b → f a = f b)
    (l : List (Nat × Act A E)) (s : Sys A K V E) (h : exec m key f Sys.init l = some s) :
    (s.holder = none → ∀ t, s.threads t ≠ [] → ∃ s', step m key f s t (.next 0) = some s') ∧
    ∀ t, s.holder = some t → ∃ k ≤ 13, ∃ s', exec m key f s (List.replicate k (t, .next 0)) = some s' ∧ s'.holder = none := by
  obtain ⟨evs, hi⟩ := exec_inv hm hkey l _ s [] (Inv.init m key f) h
  constructor
  · intro hfree t ht
    cases hth : s.threads t with
    | nil => exact absurd hth ht
    | cons fr rest =>
      simp only [step, hth, hfree, if_true]
      split
      · rename_i h1; cases h1
      · exact ⟨_, rfl⟩
      · split <;> exact ⟨_, rfl⟩
  · intro t ht
    obtain ⟨fr, rest, e, g1, g2, g3, g4, g5⟩ := hi.held t ht
    obtain ⟨x0, hx0⟩ := block_ends (E := E) hm hkey (phases_inv m key f hkey evs) t e g3
    rw [← g5] at hx0
    clear g3 g4 g5 hi
    have gen : ∀ (k : Nat) (s : Sys A K V E) (fr : Frame A K V) (rest : List (Frame A K V)), s.holder = some t → s.threads t = fr :: rest →
        inside fr = true → (∃ x, leaving (E := E) t ((micro m key)^[k] (s.st, fr)).2 = some x) →
        ∃ j ≤ k + 1, ∃ s', exec m key f s (List.replicate j (t, .next 0)) = some s' ∧ s'.holder = none := by
      intro k
      induction k with
      | zero =>
        intro s fr rest ht hth hin ⟨x, hx⟩
        obtain ⟨left, new⟩ := x
        refine ⟨1, Nat.le_refl _, ⟨s.st, none, Function.update s.threads t (left ++ rest), s.seen ++ new⟩, ?_, rfl⟩
        have hx' : leaving t fr = some (left, new) := hx
        cases fr with
        | call a pc l => cases pc <;> first | (cases hx'; done) | (simp only [List.replicate, exec, step, hth]; cases hx'; rfl)
        | clear pc => cases pc <;> first | (cases hx'; done) | (simp only [List.replicate, exec, step, hth]; cases hx'; rfl)
        | info pc i => cases pc <;> first | (cases hx'; done) | (simp only [List.replicate, exec, step, hth]; cases hx'; rfl)
      | succ k ih =>
        intro s fr rest ht hth hin hx
        have hs : ∃ s1, step m key f s t (.next 0) = some s1 ∧ (s1.holder = none ∨ s1.holder = some t ∧
            s1.st = (micro m key (s.st, fr)).1 ∧ s1.threads t = (micro m key (s.st, fr)).2 :: rest) := by
          have hup : ∀ y, Function.update s.threads t y t = y := fun y => Function.update_self _ _ _
          cases fr with
          | call a pc l =>
            cases pc <;> first
              | (cases hin; done)
              | (simp only [step, hth]; exact ⟨_, rfl, .inl rfl⟩)
              | (simp only [step, hth]; exact ⟨_, rfl, .inr ⟨ht, rfl, hup _⟩⟩)
          | clear pc =>
            cases pc <;> first
              | (cases hin; done)
              | (simp only [step, hth]; exact ⟨_, rfl, .inl rfl⟩)
              | (simp only [step, hth]; exact ⟨_, rfl, .inr ⟨ht, rfl, hup _⟩⟩)
          | info pc i =>
            cases pc <;> first
              | (cases hin; done)
              | (simp only [step, hth]; exact ⟨_, rfl, .inl rfl⟩)
              | (simp only [step, hth]; exact ⟨_, rfl, .inr ⟨ht, rfl, hup _⟩⟩)
        obtain ⟨s1, h1, h2 | ⟨h2, h3, h4⟩⟩ := hs
        · refine ⟨1, by omega, s1, ?_, h2⟩
          simp only [List.replicate, exec, h1]
          rfl
        · obtain ⟨j, hj, s', e1, e2⟩ := ih s1 _ rest h2 h4 (micro_inside m key s.st fr hin) (by
            rw [h3]
            rw [Function.iterate_succ_apply] at hx
            exact hx)
          refine ⟨j + 1, by omega, s', ?_, e2⟩
          simp only [List.replicate, exec, h1]
          exact e1
    exact gen 12 s fr rest ht g1 g2 ⟨x0, hx0⟩

/-- Thread `t` goes on for `n` steps. -/
def go (t n : Nat) : List (Nat × Act Nat String) := List.replicate n (t, .next 0)

/-- Two threads call with the same argument, the second while the first holds the lock (it has to wait) or computes; the second calls once more, and asks for
`cache_info()`. -/
example : let l := (0, .call 5) :: go 0 2 ++ (1, .call 5) :: go 0 1 ++ go 1 3 ++ go 0 4 ++ go 1 1 ++ go 0 8 ++ go 1 5 ++ (1, .call 5) :: go 1 13 ++ (1, .info) :: go 1 5
    (exec (.bounded 2) (id : Nat → Nat) (fun n => n * n) Sys.init l).map (·.seen) =
      some [.value 0 5 (some 25) false, .value 1 5 (some 25) false, .value 1 5 (some 25) true, .info 1 ⟨1, 2, 1⟩] ∧
    (exec (.bounded 2) (id : Nat → Nat) (fun n => n * n) Sys.init ((0, .call 5) :: go 0 2 ++ (1, .call 5) :: go 1 1)).isNone := by
  decide +kernel

end Verif.Cache.Locks
