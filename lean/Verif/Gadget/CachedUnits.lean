import Verif.Cache.Impure
import Verif.Gadget.FofProps

/-!
# Group radii through the real cache (C59)

`getFoFSHData` (`cosmic_profiles/gadget/read_fof.py:30-138`) with the cache of `cosmic_profiles/common/caching.py` as modelled in
`Verif.Cache`, in any mode and with any amount of free memory: results may be evicted and read again.
-/

set_option linter.unusedSectionVars false

namespace Verif.Gadget

open Verif.Cache (Mode State Out call nextCall lastRun trace)

variable {K : Type} [Mul K] [Div K]

/-! ## Model -/

/-- The arguments of `getFoFSHData`, read_fof.py:30: directory, definition of the radius, type of particles. -/
abbrev FofArgs := String × String × Nat

/-- The state of a program: the input unit of length (in cm) and the cache of `getFoFSHData.inner`. -/
structure CSession (K : Type) where
  unit : K
  inner : State FofArgs (List K)

/-- A change of the unit system, or a call of `getFoFSHData`; `avail`, `avail'` are the amounts of free memory seen in the two calls
of the cached function. -/
inductive COp (K : Type)
  | setUnit (u : K)
  | read (args : FofArgs) (avail avail' : Nat)

/-- The radii in the unit of the package, read_fof.py:74-75, 81 and 83.  Simplified: rounding to single precision is left out. -/
def inUnit (raw : FofArgs → List K) (internal u : K) (args : FofArgs) : List K := (raw args).map fun x => x * (u / internal)

/-- One operation.  read_fof.py:135-138: the cached function is called twice, the second result is returned. -/
def CSession.step (m : Mode) (raw : FofArgs → List K) (internal : K) (s : CSession K) :
    COp K → CSession K × Option (Out (List K) Unit)
  | .setUnit u => ({ s with unit := u }, none)
  | .read args avail avail' =>
    let first := call (E := Unit) m s.inner args (.ok (inUnit raw internal s.unit args)) avail
    let second := call (E := Unit) m first.1 args (.ok (inUnit raw internal s.unit args)) avail'
    ({ s with inner := second.1 }, some second.2)

/-- The state after a history. -/
def csessionAfter (m : Mode) (raw : FofArgs → List K) (internal u : K) (ops : List (COp K)) : CSession K :=
  ops.foldl (fun s op => (s.step m raw internal op).1) ⟨u, State.init⟩

/-- What operation number `k` of a history returns. -/
def answer (m : Mode) (raw : FofArgs → List K) (internal u : K) (ops : List (COp K)) (k : Nat) :
    Option (Out (List K) Unit) :=
  ops[k]?.bind fun op => ((csessionAfter m raw internal u (ops.take k)).step m raw internal op).2

/-! ## Specification -/

/-- The operation is a read with these arguments. -/
def COp.Reads (args : FofArgs) : COp K → Prop
  | .setUnit _ => False
  | .read args' _ _ => args' = args

/-- The unit after a history of operations. -/
def cunitAfter (u : K) : List (COp K) → K
  | [] => u
  | .setUnit u' :: ops => cunitAfter u' ops
  | .read _ _ _ :: ops => cunitAfter u ops

/-- The operation returned these radii. -/
def Returned (radii : List K) (out : Option (Out (List K) Unit)) : Prop := ∃ b, out = some (.ok radii b)

/-! ## Proofs -/

theorem cunitAfter_append (u : K) (ops : List (COp K)) (op : COp K) : cunitAfter u (ops ++ [op]) =
    match op with
    | .setUnit u' => u'
    | .read _ _ _ => cunitAfter u ops := by
  induction ops generalizing u with
  | nil => cases op <;> rfl
  | cons o ops ih => cases o <;> simp only [List.cons_append, cunitAfter, ih]

theorem after_append (m : Mode) (raw : FofArgs → List K) (internal u : K) (ops : List (COp K)) (op : COp K) :
    csessionAfter m raw internal u (ops ++ [op]) =
      ((csessionAfter m raw internal u ops).step m raw internal op).1 := by
  simp [csessionAfter]

theorem after_unit (m : Mode) (raw : FofArgs → List K) (internal u : K) (ops : List (COp K)) :
    (csessionAfter m raw internal u ops).unit = cunitAfter u ops := by
  induction ops using List.reverseRecOn with
  | nil => rfl
  | append_singleton ops op ih =>
    rw [after_append, cunitAfter_append]
    cases op <;> simp [CSession.step, ih]

theorem answer_append_lt (m : Mode) (raw : FofArgs → List K) (internal u : K) (ops : List (COp K)) (op : COp K) (k : Nat)
    (hk : k < ops.length) : answer m raw internal u (ops ++ [op]) k = answer m raw internal u ops k := by
  simp only [answer]
  rw [List.getElem?_append_left hk, List.take_append_of_le_length hk.le]

theorem answer_append_last (m : Mode) (raw : FofArgs → List K) (internal u : K) (ops : List (COp K)) (op : COp K) :
    answer m raw internal u (ops ++ [op]) ops.length =
      ((csessionAfter m raw internal u ops).step m raw internal op).2 := by
  simp [answer]

/-- What is known after a history: the cache is that of a history of calls, and the last run for some arguments was a read with
these arguments, whose result all reads since then returned. -/
structure Known (m : Mode) (raw : FofArgs → List K) (internal u : K) (ops : List (COp K))
    (cops : List (Cache.Op FofArgs (List K) Unit)) : Prop where
  state : (csessionAfter m raw internal u ops).inner = (Cache.run m id State.init cops).1
  last : ∀ args v, lastRun id (trace m id cops) args = some v →
    ∃ j, ∃ op, ops[j]? = some op ∧ op.Reads args ∧ v = inUnit raw internal (cunitAfter u (ops.take j)) args ∧
      ∀ i, j ≤ i → ∀ op, ops[i]? = some op → op.Reads args → Returned v (answer m raw internal u ops i)
  seen : ∀ args, (∃ op ∈ ops, op.Reads args) → ∃ v, lastRun id (trace m id cops) args = some v

/-- One read in terms of the cache: the answer, and what the last run for each arguments is afterwards. -/
theorem read_twice (m : Mode) (cops : List (Cache.Op FofArgs (List K) Unit)) (args : FofArgs) (o : List K) (avail avail' : Nat) :
    let cops' := cops ++ [.call args (.ok o) avail] ++ [.call args (.ok o) avail']
    let first := call (E := Unit) m (Cache.run m id State.init cops).1 args (.ok o) avail
    let second := call (E := Unit) m first.1 args (.ok o) avail'
    second.1 = (Cache.run m id State.init cops').1 ∧
    ((∃ v, lastRun id (trace m id cops) args = some v ∧ (∃ b, second.2 = .ok v b) ∧
        lastRun id (trace m id cops') = lastRun id (trace m id cops)) ∨
     ((∃ b, second.2 = .ok o b) ∧
        lastRun id (trace m id cops') = fun k => if k = args then some o else lastRun id (trace m id cops) k)) := by
  intro cops' first second
  have hstate1 : first.1 = (Cache.run m id State.init (cops ++ [.call args (.ok o) avail])).1 := by
    rw [Cache.run_append_one]; rfl
  have hstate2 : second.1 = (Cache.run m id State.init cops').1 := by
    simp only [cops']
    rw [Cache.run_append_one, ← hstate1]; rfl
  refine ⟨hstate2, ?_⟩
  have hf : first.2 = nextCall (E := Unit) m id cops args (.ok o) avail := rfl
  have hs : second.2 = nextCall (E := Unit) m id (cops ++ [.call args (.ok o) avail]) args (.ok o) avail' := by
    unfold nextCall
    rw [← hstate1]; rfl
  have htr : lastRun id (trace m id cops') = Cache.recordRun id (Cache.recordRun id (lastRun id (trace m id cops))
      (.call args (.ok o) avail, some first.2)) (.call args (.ok o) avail', some second.2) := by
    simp only [cops', lastRun, Cache.trace_append_one, List.foldl_append, List.foldl_cons, List.foldl_nil]
    rw [← hstate1]
    rfl
  by_cases hm : m = .zero
  · subst hm
    right
    have e1 : first.2 = .ok o true := rfl
    have e2 : second.2 = .ok o true := rfl
    refine ⟨⟨true, e2⟩, ?_⟩
    rw [htr, e1, e2]
    funext k
    simp only [Cache.recordRun, id]
    split <;> rfl
  · rcases Cache.C147_last_run m id cops args (.ok o) avail with ⟨v, h1, h2⟩ | ⟨v, h1, h2⟩ | ⟨e, h1, h2⟩
    · left
      have h3 := Cache.C147_twice m hm id cops args (.ok o) (.ok o) avail avail' v false h1
      refine ⟨v, h2, ⟨false, by rw [hs]; exact h3⟩, ?_⟩
      rw [htr, hf, hs, h1, h3]
      rfl
    · right
      have h3 := Cache.C147_twice m hm id cops args (.ok o) (.ok o) avail avail' v true h1
      simp only [Except.ok.injEq] at h2
      subst h2
      refine ⟨⟨false, by rw [hs]; exact h3⟩, ?_⟩
      rw [htr, hf, hs, h1, h3]
      rfl
    · simp at h2

theorem known_after (m : Mode) (raw : FofArgs → List K) (internal u : K) (ops : List (COp K)) :
    ∃ cops, Known m raw internal u ops cops := by
  induction ops using List.reverseRecOn with
  | nil => exact ⟨[], rfl, by intro args v h; simp [lastRun, trace] at h, by simp⟩
  | append_singleton ops op ih =>
    obtain ⟨cops, hst, hlast, hseen⟩ := ih
    have old : ∀ args v, lastRun id (trace m id cops) args = some v → (op.Reads args →
        Returned v (answer m raw internal u (ops ++ [op]) ops.length)) →
        ∃ j, ∃ op', (ops ++ [op])[j]? = some op' ∧ op'.Reads args ∧
          v = inUnit raw internal (cunitAfter u ((ops ++ [op]).take j)) args ∧
          ∀ i, j ≤ i → ∀ op', (ops ++ [op])[i]? = some op' → op'.Reads args →
            Returned v (answer m raw internal u (ops ++ [op]) i) := by
      intro args v hv hnew
      obtain ⟨j, op', hj, hr, hv', hall⟩ := hlast args v hv
      have hjl : j < ops.length := (List.getElem?_eq_some_iff.1 hj).1
      refine ⟨j, op', by rw [List.getElem?_append_left hjl]; exact hj, hr, ?_, ?_⟩
      · rw [List.take_append_of_le_length hjl.le]; exact hv'
      · intro i hji op'' hi hr'
        by_cases hil : i < ops.length
        · rw [answer_append_lt _ _ _ _ _ _ _ hil]
          exact hall i hji op'' (by rw [List.getElem?_append_left hil] at hi; exact hi) hr'
        · have hi' : i = ops.length := by
            have := (List.getElem?_eq_some_iff.1 hi).1
            simp at this; omega
          subst hi'
          simp at hi
          subst hi
          exact hnew hr'
    cases op with
    | setUnit u' =>
      refine ⟨cops, ?_, ?_, ?_⟩
      · rw [after_append]; exact hst
      · intro args v hv
        exact old args v hv (fun h => h.elim)
      · rintro args ⟨op, hop, hr⟩
        simp at hop
        rcases hop with hop | rfl
        · exact hseen args ⟨op, hop, hr⟩
        · exact hr.elim
    | read args avail avail' =>
      obtain ⟨h1, h2⟩ := read_twice m cops args (inUnit raw internal (cunitAfter u ops) args) avail avail'
      have hans := answer_append_last m raw internal u ops (.read args avail avail')
      simp only [CSession.step, hst, after_unit] at hans
      refine ⟨_, ⟨by rw [after_append]; simp only [CSession.step, hst, after_unit]; exact h1, ?_, ?_⟩⟩
      swap
      · rintro args' ⟨op, hop, hr⟩
        by_cases hk : args' = args
        · subst hk
          rcases h2 with ⟨w, hw, -, he⟩ | ⟨-, he⟩
          · exact ⟨w, by rw [he]; exact hw⟩
          · exact ⟨_, by rw [he]; exact if_pos rfl⟩
        · have hop' : op ∈ ops := by
            simp at hop
            rcases hop with hop | rfl
            · exact hop
            · exact absurd hr.symm hk
          obtain ⟨w, hw⟩ := hseen args' ⟨op, hop', hr⟩
          rcases h2 with ⟨_, -, -, he⟩ | ⟨-, he⟩
          · exact ⟨w, by rw [he]; exact hw⟩
          · exact ⟨w, by rw [he]; simp only [if_neg hk]; exact hw⟩
      intro args' v hv
      rcases h2 with ⟨w, hw, ⟨b, hb⟩, he⟩ | ⟨⟨b, hb⟩, he⟩
      · rw [he] at hv
        refine old args' v hv fun hr => ⟨b, ?_⟩
        simp only [COp.Reads] at hr
        subst hr
        rw [hans, hb]
        rw [hw] at hv
        simp only [Option.some.injEq] at hv
        rw [hv]
      · rw [he] at hv
        by_cases hk : args' = args
        · subst hk
          simp only [if_true, Option.some.injEq] at hv
          subst hv
          refine ⟨ops.length, .read args' avail avail', by simp, rfl, by simp, ?_⟩
          intro i hi op' hop hr
          have hi' : i = ops.length := by
            have := (List.getElem?_eq_some_iff.1 hop).1
            simp at this; omega
          subst hi'
          exact ⟨b, by rw [hans, hb]⟩
        · simp only [if_neg hk] at hv
          exact old args' v hv fun hr => absurd hr.symm hk

/-- C59, exactly what holds with the real cache, in every mode, however little memory is free, and in every history of changes of units
and reads: a read returns the radii converted with the unit which was current at some earlier read with the same arguments (or now), and
so did all reads with these arguments in between. -/
theorem C59_cached_partial (m : Mode) (raw : FofArgs → List K) (internal u : K) (ops : List (COp K)) (k : Nat) (args : FofArgs)
    (op : COp K) (hk : ops[k]? = some op) (hop : op.Reads args) :
    ∃ j ≤ k, ∃ op', ops[j]? = some op' ∧ op'.Reads args ∧ ∀ i, j ≤ i → i ≤ k → ∀ op'', ops[i]? = some op'' → op''.Reads args →
      Returned ((raw args).map fun x => x * (cunitAfter u (ops.take j) / internal)) (answer m raw internal u ops i) := by
  have hkl : k < ops.length := (List.getElem?_eq_some_iff.1 hk).1
  -- the history up to and including operation `k`
  obtain ⟨cops, -, hlast, hseen⟩ := known_after m raw internal u (ops.take (k + 1))
  obtain ⟨v, hv⟩ := hseen args ⟨op, List.mem_of_getElem? (i := k) (by rw [List.getElem?_take_of_lt (by omega)]; exact hk), hop⟩
  obtain ⟨j, op', hj, hr, hv', hall⟩ := hlast args v hv
  have hjl := (List.getElem?_eq_some_iff.1 hj).1
  simp only [List.length_take] at hjl
  have hget : ∀ i, i ≤ k → (ops.take (k + 1))[i]? = ops[i]? := fun i hi => List.getElem?_take_of_lt (by omega)
  have htake : ∀ i, i ≤ k → (ops.take (k + 1)).take i = ops.take i := fun i hi => by
    rw [List.take_take, min_eq_left (by omega)]
  refine ⟨j, by omega, op', by rw [← hget j (by omega)]; exact hj, hr, ?_⟩
  intro i hji hik op'' hi hr'
  have := hall i hji op'' (by rw [hget i hik]; exact hi) hr'
  simp only [answer, hget i hik, htake i hik] at this
  rw [htake j (by omega)] at hv'
  have hv2 : v = (raw args).map fun x => x * (cunitAfter u (ops.take j) / internal) := hv'
  rw [← hv2]
  exact this

/-- C59 is false with the real cache in every mode but that of size zero, whatever happened before and however little memory is free: after a
change of the unit the radii are returned in the unit of the read before. -/
theorem C59_cached_stale_refuted (m : Mode) (hm : m ≠ .zero) (raw : FofArgs → List K) (internal u u' : K) (ops : List (COp K))
    (args : FofArgs) (av av' bv bv' : Nat) :
    ∃ radii, Returned radii (answer m raw internal u (ops ++ [.read args av av', .setUnit u', .read args bv bv']) ops.length) ∧
      Returned radii (answer m raw internal u (ops ++ [.read args av av', .setUnit u', .read args bv bv']) (ops.length + 2)) := by
  obtain ⟨cops, hst, -, -⟩ := known_after m raw internal u ops
  have e1 : answer m raw internal u (ops ++ [.read args av av', .setUnit u', .read args bv bv']) ops.length =
      ((csessionAfter m raw internal u ops).step m raw internal (.read args av av')).2 := by
    simp [answer]
  have e2 : answer m raw internal u (ops ++ [.read args av av', .setUnit u', .read args bv bv']) (ops.length + 2) =
      ((csessionAfter m raw internal u (ops ++ [.read args av av'] ++ [.setUnit u'])).step m raw internal (.read args bv bv')).2 := by
    simp [answer, List.take_append, List.take_of_length_le (show ops.length ≤ ops.length + 2 by omega)]
  rw [e1, e2, after_append, after_append]
  simp only [CSession.step, hst, after_unit]
  obtain ⟨h1, h2⟩ := read_twice m cops args (inUnit raw internal (cunitAfter u ops) args) av av'
  have hw : ∃ w b, (call (E := Unit) m (call (E := Unit) m (Cache.run m id State.init cops).1 args
      (.ok (inUnit raw internal (cunitAfter u ops) args)) av).1 args
      (.ok (inUnit raw internal (cunitAfter u ops) args)) av').2 = .ok w b := by
    rcases h2 with ⟨w, -, ⟨b, hb⟩, -⟩ | ⟨⟨b, hb⟩, -⟩
    · exact ⟨w, b, hb⟩
    · exact ⟨_, b, hb⟩
  obtain ⟨w, b, hb⟩ := hw
  refine ⟨w, ⟨b, by rw [hb]⟩, false, ?_⟩
  have hs : ∀ cops : List (Cache.Op FofArgs (List K) Unit), ∀ o av,
      (call (E := Unit) m (Cache.run m id State.init cops).1 args (.ok o) av).1 =
      (Cache.run m id State.init (cops ++ [.call args (.ok o) av])).1 := by
    intro cops o av
    rw [Cache.run_append_one]; rfl
  rw [hs] at hb
  have h3 := Cache.C147_twice (E := Unit) m hm id
    (cops ++ [Cache.Op.call args (.ok (inUnit raw internal (cunitAfter u ops) args)) av]) args
    (.ok (inUnit raw internal (cunitAfter u ops) args)) (.ok (inUnit raw internal u' args)) av' bv w b hb
  have h4 := Cache.C147_twice (E := Unit) m hm id _ args (.ok (inUnit raw internal u' args)) (.ok (inUnit raw internal u' args)) bv bv' w
    false h3
  rw [hs, hs, hs]
  simp only [nextCall] at h4
  simp only [id] at h4
  rw [h4]

/-- C59: kpc/h first, then Mpc/h, with a cache of one place: the second read gives the radius of the first.  Another read in between drives
the result from the cache, and the third read gives the new unit. -/
example : let ops : List (COp ℚ) := [.read ("fof", "R200", 1) 0 0, .setUnit 1000, .read ("fof", "R200", 1) 0 0,
      .read ("fof", "Rvir", 1) 0 0, .read ("fof", "R200", 1) 0 0]
    (List.range 5).map (answer (.bounded 1) (fun _ => [200]) 1000 1 ops) =
      [some (.ok [1 / 5] false), none, some (.ok [1 / 5] false), some (.ok [200] false), some (.ok [200] false)] := by
  decide +kernel

end Verif.Gadget
