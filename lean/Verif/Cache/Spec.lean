import Verif.Cache.Model

/-! # Specification vocabulary for the cache properties -/

set_option linter.unusedSectionVars false

namespace Verif.Cache

variable {K V E A : Type} [DecidableEq K]

/-- The distinct elements of a list, each at its first occurrence. -/
def distinct : List K → List K
  | [] => []
  | k :: ks => k :: (distinct ks).filter (fun x => decide (x ≠ k))

/-- A history together with what was observed: operation and returned value / exception. -/
abbrev Trace (A V E : Type) := List (Op A V E × Option (Out V E))

/-- The trace of a history started on a freshly decorated function. -/
def trace (m : Mode) (key : A → K) (ops : List (Op A V E)) : Trace A V E :=
  ops.zip ((run m key (State.init : State K V) ops).2.map Prod.fst)

/-- Record one observed operation: a clear forgets everything, a successful call is a use. -/
def recordUse (key : A → K) (us : List K) : Op A V E × Option (Out V E) → List K
  | (.clear, _) => []
  | (.call a _ _, some (.ok _ _)) => key a :: us
  | _ => us

/-- Arguments (cache keys) of the successful calls since the last clear, newest first. -/
def usesOf (key : A → K) (tr : Trace A V E) : List K := tr.foldl (recordUse key) []

/-- Number of calls since the last clear whose observed outcome satisfies `p`. -/
def countSince (p : Out V E → Bool) (tr : Trace A V E) : Nat :=
  tr.foldl (fun n x => match x with
    | (.clear, _) => 0
    | (.call _ _ _, some o) => if p o then n + 1 else n
    | _ => n) 0

/-- What the next call with argument `a` would return after the history `ops`. -/
def nextCall (m : Mode) (key : A → K) (ops : List (Op A V E)) (a : A) (o : Except E V)
    (avail : Nat) : Out V E :=
  (call m (run m key (State.init : State K V) ops).1 (key a) o avail).2

/-- `cache_info()` after the history `ops`. -/
def infoAfter (m : Mode) (key : A → K) (ops : List (Op A V E)) : Info :=
  cacheInfo (run m key (State.init : State K V) ops).1

/-- A value was returned without running the function. -/
def Out.isHit : Out V E → Bool
  | .ok _ false => true
  | _ => false

/-- A value was returned after running the function. -/
def Out.isMiss : Out V E → Bool
  | .ok _ true => true
  | _ => false

end Verif.Cache
