import Verif.Cache.History

/-! # Invariant of concurrent executions of the cache decorator -/

set_option linter.unusedSectionVars false

namespace Verif.Cache

variable {K V E A : Type} [DecidableEq K]

/-- Abstract invariant of concurrent executions. -/
def CInv (m : Mode) (key : A → K) (f : A → V) (s : State K V) : Prop :=
  ∃ t, Rel m s t ∧ AVals key f t ∧ (t.entries.map Prod.fst).Nodup ∧
    ∀ n, m = .bounded n → (t.entries.length : Int) ≤ max n 1 ∧
      (t.full = false → (t.entries.length : Int) < max n 1)

theorem aset_keys (d : List (K × V)) (k : K) (v : V) :
    (aset d k v).map Prod.fst = if k ∈ d.map Prod.fst then d.map Prod.fst else d.map Prod.fst ++ [k] := by
  induction d with
  | nil => simp [aset]
  | cons p d ih =>
    obtain ⟨k', v'⟩ := p
    by_cases hk : k' = k
    · simp [aset, hk]
    · by_cases hm : k ∈ d.map Prod.fst
      · simp only [aset, hk, if_false, List.map_cons, ih, hm, if_true, List.mem_cons, or_true]
      · simp only [aset, hk, if_false, List.map_cons, ih, hm, List.mem_cons, Ne.symm hk, or_self,
          List.cons_append]

theorem CInv.init (m : Mode) (key : A → K) (f : A → V) : CInv m key f (State.init : State K V) := by
  refine ⟨ACache.init, Rel.init m, ?_, ?_, ?_⟩
  · intro k v h; simp [ACache.init] at h
  · simp [ACache.init]
  · intro n _; simp [ACache.init]; omega

theorem CInv.clear {m : Mode} {key : A → K} {f : A → V} {s : State K V} (h : CInv m key f s) :
    CInv m key f (cacheClear s) := by
  obtain ⟨t, h1, -⟩ := h
  refine ⟨aclear t, h1.clear, ?_, ?_, ?_⟩
  · intro k v h; simp [aclear, ACache.init] at h
  · simp [aclear, ACache.init]
  · intro n _; simp [aclear, ACache.init]; omega

theorem CInv.lookup {m : Mode} {key : A → K} {f : A → V} {s : State K V} (h : CInv m key f s)
    (a : A) :
    CInv m key f (lookupPhase m s (key a)).1 ∧ (∀ v, (lookupPhase m s (key a)).2 = some v → v = f a) ∧
    (lookupPhase m s (key a)).1.hits + (lookupPhase m s (key a)).1.misses =
      s.hits + s.misses + (if (lookupPhase m s (key a)).2.isSome then 1 else 0) := by
  obtain ⟨t, h1, h2, h3, h4⟩ := h
  obtain ⟨r1, r2⟩ := h1.lookup (key a)
  obtain ⟨v1, v2⟩ := h2.lookup (m := m) a
  have hcount : (alookup m t (key a)).1.misses = t.misses ∧
      (alookup m t (key a)).1.hits = t.hits + (if (alookup m t (key a)).2.isSome then 1 else 0) := by
    cases m <;> cases hg : aget t.entries (key a) <;> simp [alookup, hg]
  have hmv : ∀ v, aget t.entries (key a) = some v →
      ((adel t.entries (key a) ++ [(key a, v)]).map Prod.fst).Nodup ∧
      (adel t.entries (key a) ++ [(key a, v)]).length = t.entries.length := by
    intro v hg
    obtain ⟨d1, d2, hd, hdel⟩ := aget_some_split hg
    have hp : (d1 ++ d2 ++ [(key a, v)]).Perm (d1 ++ (key a, v) :: d2) :=
      (List.perm_append_singleton _ _).trans List.perm_middle.symm
    rw [hdel]
    refine ⟨((hp.map Prod.fst).nodup_iff).2 (by rw [← hd]; exact h3), ?_⟩
    rw [hp.length_eq, ← hd]
  refine ⟨⟨_, r1, v1, ?_, ?_⟩, ?_, ?_⟩
  · cases m <;> cases hg : aget t.entries (key a) <;> simp only [alookup, hg] <;>
      first | exact h3 | exact (hmv _ hg).1
  · rintro n rfl
    have := h4 n rfl
    cases hg : aget t.entries (key a) with
    | none => simpa [alookup, hg] using this
    | some v => simp only [alookup, hg, (hmv v hg).2]; exact this
  · intro v hv; exact v2 v (r2 ▸ hv)
  · rw [r1.1, r1.2.1, h1.1, h1.2.1, r2, hcount.1, hcount.2]; omega

theorem CInv.insert {m : Mode} {key : A → K} {f : A → V} {s : State K V} (h : CInv m key f s)
    (hkey : ∀ a b, key a = key b → f a = f b) (a : A) (avail : Nat) :
    ∃ s', insertPhase m s (key a) (f a) avail = some s' ∧ CInv m key f s' ∧
      s'.hits + s'.misses = s.hits + s.misses + 1 := by
  obtain ⟨t, h1, h2, h3, h4⟩ := h
  obtain ⟨s', i1, i2⟩ := h1.insert (key a) (f a) avail
  refine ⟨s', i1, ⟨_, i2, h2.insert hkey a avail, ?_, ?_⟩, ?_⟩
  · -- keys stay distinct
    have happ : ∀ es : List (K × V), (es.map Prod.fst).Nodup → key a ∉ es.map Prod.fst →
        ((es ++ [(key a, f a)]).map Prod.fst).Nodup := by
      intro es h h'
      rw [List.map_append, List.nodup_append]
      refine ⟨h, by simp, ?_⟩
      intro x hx y hy
      simp at hy
      exact fun hh => h' (hy ▸ hh ▸ hx)
    have hlink : ((if (aget t.entries (key a)).isSome then { t with misses := t.misses + 1 }
      else if t.full then
        { t with entries := t.entries.tail ++ [(key a, f a)], misses := t.misses + 1 }
      else
        { t with entries := t.entries ++ [(key a, f a)], misses := t.misses + 1,
                 full := fullAfter m (t.entries.length + 1) avail } : ACache K V).entries.map Prod.fst).Nodup := by
      cases hg : aget t.entries (key a) with
      | some v => simpa using h3
      | none =>
        have hk := (aget_none_iff _ _).1 hg
        simp only [Option.isSome_none, Bool.false_eq_true, if_false]
        split
        · refine happ _ ?_ ?_
          · rw [List.map_tail]; exact h3.sublist (List.tail_sublist _)
          · rw [List.map_tail]; exact fun hh => hk (List.mem_of_mem_tail hh)
        · exact happ _ h3 hk
    cases m with
    | zero => exact h3
    | unbounded =>
      simp only [ainsert, aset_keys]
      split
      · exact h3
      · rename_i hk
        have := happ _ h3 hk
        simpa using this
    | memory l => exact hlink
    | bounded n => exact hlink
  · rintro n rfl
    obtain ⟨b1, b2⟩ := h4 n rfl
    have hne : t.full = true → t.entries ≠ [] := h1.2.2.2.1
    simp only [ainsert]
    split
    · exact ⟨b1, b2⟩
    · split
      · rename_i hf
        have : 0 < t.entries.length := List.length_pos_of_ne_nil (hne hf)
        refine ⟨?_, fun hh => by simp [hf] at hh⟩
        simp only [List.length_append, List.length_tail, List.length_cons, List.length_nil]
        omega
      · rename_i hf
        have := b2 (by simpa using hf)
        simp only [List.length_append, List.length_cons, List.length_nil, fullAfter,
          decide_eq_false_iff_not]
        omega
  · have hc : (ainsert m t (key a) (f a) avail).hits = t.hits ∧
        (ainsert m t (key a) (f a) avail).misses = t.misses + 1 := by
      cases m <;> simp only [ainsert] <;> (repeat' split) <;> simp
    rw [i2.1, i2.2.1, h1.1, h1.2.1, hc.1, hc.2]; omega

end Verif.Cache
