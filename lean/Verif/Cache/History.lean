import Verif.Cache.Recency
import Mathlib.Data.List.Induction

set_option linter.unusedSectionVars false

namespace Verif.Cache

variable {K V E A : Type} [DecidableEq K]

/-! ### helper lemmas -/

theorem run_append (m : Mode) (key : A → K) (s : State K V) (o1 o2 : List (Op A V E)) :
    run m key s (o1 ++ o2) =
      ((run m key (run m key s o1).1 o2).1, (run m key s o1).2 ++ (run m key (run m key s o1).1 o2).2) := by
  induction o1 generalizing s with
  | nil => simp [run]
  | cons op o1 ih => simp [run, ih]

theorem run_length (m : Mode) (key : A → K) (s : State K V) (ops : List (Op A V E)) :
    (run m key s ops).2.length = ops.length := by
  induction ops generalizing s with
  | nil => simp [run]
  | cons op o1 ih => simp [run, ih]

theorem trace_append_one (m : Mode) (key : A → K) (ops : List (Op A V E)) (op : Op A V E) :
    trace m key (ops ++ [op]) = trace m key ops ++
      [(op, (step m key (run m key (State.init : State K V) ops).1 op).2)] := by
  simp only [trace, run_append, List.map_append]
  rw [List.zip_append (by simp [run_length])]
  rfl

theorem run_append_one (m : Mode) (key : A → K) (s : State K V) (ops : List (Op A V E)) (op : Op A V E) :
    (run m key s (ops ++ [op])).1 = (step m key (run m key s ops).1 op).1 := by
  simp [run_append, run]

theorem acall_counters (m : Mode) (t : ACache K V) (k : K) (o : Except E V) (avail : Nat) :
    (acall m t k o avail).1.hits = t.hits + (if (acall m t k o avail).2.isHit then 1 else 0) ∧
    (acall m t k o avail).1.misses = t.misses + (if (acall m t k o avail).2.isMiss then 1 else 0) := by
  have hi : ∀ t : ACache K V, ∀ v, (ainsert m t k v avail).hits = t.hits ∧
      (ainsert m t k v avail).misses = t.misses + 1 := by
    intro t v
    cases m <;> simp only [ainsert] <;> (repeat' split) <;> simp
  have hl : (alookup m t k).1.misses = t.misses ∧
      (alookup m t k).1.hits = t.hits + (if (alookup m t k).2.isSome then 1 else 0) := by
    cases m <;> cases hg : aget t.entries k <;> simp [alookup, hg]
  unfold acall
  rcases hc : alookup m t k with ⟨t1, r⟩
  rw [hc] at hl
  simp only at hl
  cases r with
  | some v => simp [Out.isHit, Out.isMiss, hl]
  | none =>
    cases o with
    | error e => simp [Out.isHit, Out.isMiss, hl]
    | ok v => simp [Out.isHit, Out.isMiss, hl, hi]

/-- The abstract state reached by a history. -/
def absAfter (m : Mode) (key : A → K) (ops : List (Op A V E)) : ACache K V :=
  (arun m key ACache.init ops).1

theorem rel_after (m : Mode) (key : A → K) (ops : List (Op A V E)) :
    Rel m (run m key (State.init : State K V) ops).1 (absAfter m key ops) :=
  ((Rel.init m).run key ops).1

theorem arun_append_one (m : Mode) (key : A → K) (t : ACache K V) (ops : List (Op A V E)) (op : Op A V E) :
    (arun m key t (ops ++ [op])).1 = (astep m key (arun m key t ops).1 op).1 := by
  induction ops generalizing t with
  | nil => simp [arun]
  | cons o1 ops ih => simp [arun, ih]

theorem distinct_length_hit {us : List K} {k : K} (h : k ∈ us) :
    (distinct (k :: us)).length = (distinct us).length := by
  have hm : k ∈ distinct us := (mem_distinct _ _).2 h
  have e : ((distinct us).filter (fun x => decide (x ≠ k))) = (distinct us).erase k := by
    rw [List.Nodup.erase_eq_filter (distinct_nodup us)]
    congr 1; funext x
    by_cases hx : x = k <;> simp [hx]
  simp only [distinct, List.length_cons, e, List.length_erase_of_mem hm]
  have : 0 < (distinct us).length := List.length_pos_of_mem hm
  omega

theorem distinct_length_new {us : List K} {k : K} (h : k ∉ us) :
    (distinct (k :: us)).length = (distinct us).length + 1 := by
  have hm : k ∉ distinct us := fun hh => h ((mem_distinct _ _).1 hh)
  simp only [distinct, List.length_cons, filter_notMem hm]

/-- Induction over histories of a link wrapper, continuing a history `ops1`. -/
theorem link_induction {m : Mode} (hm : m.isLink = true) (key : A → K)
    (P : List K → Option Nat → Prop) (Q : Nat → Prop)
    (hhit : ∀ us c k, k ∈ us → P us c → P (k :: us) c)
    (hmiss : ∀ us c k avail, P us c → (c = none → k ∉ us) → Q avail →
      P (k :: us) (capAfter m ((distinct us).length + 1) avail c))
    (ops1 ops2 : List (Op A V E))
    (hclear : Op.clear ∈ ops2 → P [] none)
    (hQ : ∀ a o n, Op.call a o n ∈ ops2 → Q n)
    (h0 : ∃ c, LInv (absAfter m key ops1) (usesOf key (trace m key ops1)) c ∧
      P (usesOf key (trace m key ops1)) c) :
    ∃ c, LInv (absAfter m key (ops1 ++ ops2)) (usesOf key (trace m key (ops1 ++ ops2))) c ∧
      P (usesOf key (trace m key (ops1 ++ ops2))) c := by
  induction ops2 using List.reverseRecOn with
  | nil => simpa using h0
  | append_singleton ops2 op ih =>
    obtain ⟨c, ih, hP⟩ := ih (fun h => hclear (by simp [h])) (fun a o n h => hQ a o n (by simp [h]))
    rw [← List.append_assoc]
    have hrel := rel_after m key (ops1 ++ ops2)
    have eA : ∀ op, absAfter m key (ops1 ++ ops2 ++ [op]) =
        (astep m key (absAfter m key (ops1 ++ ops2)) op).1 :=
      fun op => arun_append_one m key ACache.init (ops1 ++ ops2) op
    have eU : ∀ op, usesOf key (trace m key (ops1 ++ ops2 ++ [op])) =
        recordUse key (usesOf key (trace m key (ops1 ++ ops2)))
          (op, (step m key (run m key (State.init : State K V) (ops1 ++ ops2)).1 op).2) := by
      intro op
      rw [trace_append_one, usesOf, List.foldl_append]; rfl
    rw [eA, eU]
    generalize absAfter m key (ops1 ++ ops2) = t at *
    generalize usesOf key (trace m key (ops1 ++ ops2)) = us at *
    cases op with
    | clear => exact ⟨none, LInv.init, hclear (by simp)⟩
    | call a o avail =>
      obtain ⟨l1, l2, l3⟩ := acall_link hm ih (key a) o avail
      have hout := (hrel.call (key a) o avail).2
      simp only [step, astep, hout]
      have hmem : ∀ k, k ∈ recent t → k ∈ us := by
        intro k hk
        cases c with
        | none => exact (mem_distinct _ _).1 (ih.2 ▸ hk)
        | some N => exact (mem_distinct _ _).1 (List.mem_of_mem_take (ih.2.2.2 ▸ hk))
      by_cases hk : key a ∈ recent t
      · obtain ⟨v, h1, h2⟩ := l1 hk
        exact ⟨c, by simpa [h1, recordUse] using h2,
          by simpa [h1, recordUse] using hhit _ _ _ (hmem _ hk) hP⟩
      · cases o with
        | error e =>
          have := l2 hk e rfl
          exact ⟨c, by simpa [this, recordUse] using ih, by simpa [this, recordUse] using hP⟩
        | ok v =>
          obtain ⟨h1, h2⟩ := l3 hk v rfl
          refine ⟨_, by simpa [h1, recordUse] using h2, ?_⟩
          simp only [h1, recordUse]
          refine hmiss _ _ _ avail hP ?_ (hQ a (.ok v) avail (by simp))
          rintro rfl hh
          exact hk (ih.2 ▸ (mem_distinct _ _).2 hh)

/-- In terms of observations: after a history whose abstract state is `t`. -/
theorem nextCall_hit_iff {m : Mode} (hm : m.isLink = true) (key : A → K) (ops : List (Op A V E))
    {us c} (h : LInv (absAfter m key ops) us c) (a : A) (o : Except E V) (avail : Nat) :
    (nextCall m key ops a o avail).isHit = true ↔ key a ∈ recent (absAfter m key ops) := by
  have hout := ((rel_after m key ops).call (key a) o avail).2
  obtain ⟨l1, l2, l3⟩ := acall_link hm h (key a) o avail
  unfold nextCall
  rw [hout]
  by_cases hk : key a ∈ recent (absAfter m key ops)
  · obtain ⟨v, h1, h2⟩ := l1 hk
    simp [h1, Out.isHit, hk]
  · cases o with
    | error e => simp [l2 hk e rfl, Out.isHit, hk]
    | ok v => simp [(l3 hk v rfl).1, Out.isHit, hk]

theorem infoAfter_eq (m : Mode) (key : A → K) (ops : List (Op A V E)) :
    infoAfter m key ops = ainfo (absAfter m key ops) := (rel_after m key ops).info

theorem recent_length (t : ACache K V) : (recent t).length = t.entries.length := by simp [recent]

/-- The capacity of a bounded wrapper. -/
theorem bounded_after (n : Int) (key : A → K) (ops : List (Op A V E)) :
    ∃ c, LInv (absAfter (.bounded n) key ops) (usesOf key (trace (.bounded n) key ops)) c ∧
      (match c with
        | some N => (N : Int) = max n 1
        | none => ((distinct (usesOf key (trace (.bounded n) key ops))).length : Int) < max n 1) := by
  have := link_induction (m := .bounded n) rfl key
    (fun us c => match c with
        | some N => (N : Int) = max n 1
        | none => ((distinct us).length : Int) < max n 1) (fun _ => True)
    ?_ ?_ [] ops ?_ (fun _ _ _ _ => trivial) ?_
  · simpa using this
  · intro us c k hk hP
    cases c with
    | some N => exact hP
    | none => simpa [distinct_length_hit hk] using hP
  · intro us c k avail hP hk _
    cases c with
    | some N => exact hP
    | none =>
      have := distinct_length_new (hk rfl)
      simp only [capAfter, fullAfter]
      by_cases hle : n ≤ (((distinct us).length + 1 : Nat) : Int)
      · simp only [hle, decide_true, if_true]
        simp only at hP
        omega
      · simp only [hle, decide_false, Bool.false_eq_true, if_false, this]
        omega
  · intro _; simp [distinct]; omega
  · exact ⟨none, LInv.init, by simp [usesOf, trace, distinct]; omega⟩

theorem bounded_recent (n : Int) (key : A → K) (ops : List (Op A V E)) :
    recent (absAfter (.bounded n) key ops) =
      (distinct (usesOf key (trace (.bounded n) key ops))).take (max n 1).toNat := by
  obtain ⟨c, h, hc⟩ := bounded_after n key ops
  cases c with
  | some N =>
    simp only at hc
    rw [h.2.2.2, ← hc]; simp
  | none =>
    simp only at hc
    rw [h.2, List.take_of_length_le (by omega)]

/-! ### values -/

/-- All cached values are those of `f`. -/
def AVals (key : A → K) (f : A → V) (t : ACache K V) : Prop :=
  ∀ k v, (k, v) ∈ t.entries → ∀ a, key a = k → f a = v

theorem mem_adel {d : List (K × V)} {k : K} {x : K × V} (h : x ∈ adel d k) : x ∈ d := by
  induction d with
  | nil => simp [adel] at h
  | cons p d ih =>
    obtain ⟨k', v⟩ := p
    by_cases hk : k' = k
    · simp [adel, hk] at h; exact List.mem_cons_of_mem _ h
    · simp [adel, hk] at h ⊢
      rcases h with h | h
      · exact Or.inl h
      · exact Or.inr (ih h)

theorem mem_aset {d : List (K × V)} {k : K} {v : V} {x : K × V} (h : x ∈ aset d k v) :
    x ∈ d ∨ x = (k, v) := by
  induction d with
  | nil => simp [aset] at h; exact Or.inr h
  | cons p d ih =>
    obtain ⟨k', v'⟩ := p
    by_cases hk : k' = k
    · simp [aset, hk] at h ⊢; tauto
    · simp [aset, hk] at h ⊢
      rcases h with h | h
      · tauto
      · rcases ih h with h | h <;> tauto

theorem aget_mem {d : List (K × V)} {k : K} {v : V} (h : aget d k = some v) : (k, v) ∈ d := by
  obtain ⟨d1, d2, h1, -⟩ := aget_some_split h
  simp [h1]

theorem AVals.lookup {m : Mode} {key : A → K} {f : A → V} {t : ACache K V} (h : AVals key f t)
    (a : A) :
    AVals key f (alookup m t (key a)).1 ∧ ∀ v, (alookup m t (key a)).2 = some v → v = f a := by
  cases hg : aget t.entries (key a) with
  | none => cases m <;> simp [alookup, hg, h]
  | some v =>
    have hv : f a = v := h _ _ (aget_mem hg) a rfl
    have hmv : ∀ h' f', AVals key f (⟨adel t.entries (key a) ++ [(key a, v)], h', t.misses, f'⟩ : ACache K V) := by
      intro h' f' k w hm b hb
      simp at hm
      rcases hm with hm | ⟨rfl, rfl⟩
      · exact h k w (mem_adel hm) b hb
      · exact h _ _ (aget_mem hg) b hb
    cases m with
    | zero => simp [alookup, h]
    | unbounded => simp only [alookup, hg]; exact ⟨h, by simp [hv]⟩
    | memory l => simp only [alookup, hg]; exact ⟨hmv _ _, by simp [hv]⟩
    | bounded n => simp only [alookup, hg]; exact ⟨hmv _ _, by simp [hv]⟩

theorem AVals.insert {m : Mode} {key : A → K} {f : A → V} {t : ACache K V} (h : AVals key f t)
    (hkey : ∀ a b, key a = key b → f a = f b) (a : A) (avail : Nat) :
    AVals key f (ainsert m t (key a) (f a) avail) := by
  have hnew : ∀ es : List (K × V), (∀ x ∈ es, x ∈ t.entries ∨ x = (key a, f a)) → ∀ h' m' f',
      AVals key f (⟨es, h', m', f'⟩ : ACache K V) := by
    intro es hes h' m' f' k w hm b hb
    rcases hes _ hm with hm | hm
    · exact h k w hm b hb
    · simp at hm
      obtain ⟨rfl, rfl⟩ := hm
      exact hkey _ _ hb
  cases m with
  | zero => exact h
  | unbounded => exact hnew _ (fun x hx => mem_aset hx) _ _ _
  | memory l =>
    simp only [ainsert]
    split
    · exact h
    · split
      · exact hnew _ (fun x hx => by
          simp at hx; exact hx.imp (fun h => List.mem_of_mem_tail h) id) _ _ _
      · exact hnew _ (fun x hx => by simpa using hx) _ _ _
  | bounded n =>
    simp only [ainsert]
    split
    · exact h
    · split
      · exact hnew _ (fun x hx => by
          simp at hx; exact hx.imp (fun h => List.mem_of_mem_tail h) id) _ _ _
      · exact hnew _ (fun x hx => by simpa using hx) _ _ _

end Verif.Cache
