import Verif.Cache.Abstract
import Verif.Cache.Spec

/-! Lemmas relating the abstract recency list to the history of uses. -/

set_option linter.unusedSectionVars false

namespace Verif.Cache

variable {K V E A : Type} [DecidableEq K]

theorem mem_distinct (k : K) (l : List K) : k ∈ distinct l ↔ k ∈ l := by
  induction l with
  | nil => simp [distinct]
  | cons a l ih =>
    by_cases h : k = a <;> simp [distinct, h, ih]

theorem distinct_nodup (l : List K) : (distinct l).Nodup := by
  induction l with
  | nil => simp [distinct]
  | cons a l ih =>
    simp only [distinct, List.nodup_cons]
    exact ⟨by simp, ih.filter _⟩

theorem filter_notMem {l : List K} {k : K} (h : k ∉ l) :
    l.filter (fun x => decide (x ≠ k)) = l := by
  rw [List.filter_eq_self]
  intro a ha
  have : a ≠ k := fun hh => h (hh ▸ ha)
  simpa using this

theorem take_filter_mem {D : List K} (hD : D.Nodup) {k : K} {N : Nat} (h : k ∈ D.take N) :
    (D.take N).filter (fun x => decide (x ≠ k)) = (D.filter (fun x => decide (x ≠ k))).take (N - 1) := by
  induction D generalizing N with
  | nil => simp at h
  | cons d D ih =>
    obtain ⟨hd, hD⟩ := List.nodup_cons.1 hD
    cases N with
    | zero => simp at h
    | succ n =>
      by_cases hk : d = k
      · subst hk
        have h1 : d ∉ D.take n := fun hh => hd (List.mem_of_mem_take hh)
        have e1 := filter_notMem h1
        have e2 := filter_notMem hd
        simp only [List.take_succ_cons, List.filter_cons, ne_eq, not_true_eq_false, decide_false,
          Bool.false_eq_true, if_false, Nat.add_sub_cancel] at e1 e2 ⊢
        rw [e1, e2]
      · have h1 : k ∈ D.take n := by
          rcases List.mem_cons.1 (by simpa using h) with h2 | h2
          · exact absurd h2.symm hk
          · exact h2
        cases n with
        | zero => simp at h1
        | succ n =>
          have := ih hD h1
          simp only [Nat.add_sub_cancel] at this ⊢
          simp only [List.take_succ_cons, List.filter_cons, ne_eq, hk, not_false_eq_true,
            decide_true, if_true] at this ⊢
          rw [this]

theorem take_filter_notMem {D : List K} {k : K} {N n : Nat} (h : k ∉ D.take N) (hn : n ≤ N) :
    (D.filter (fun x => decide (x ≠ k))).take n = D.take n := by
  induction D generalizing N n with
  | nil => simp
  | cons d D ih =>
    cases n with
    | zero => simp
    | succ n =>
      obtain ⟨N, rfl⟩ : ∃ M, N = M + 1 := ⟨N - 1, by omega⟩
      simp only [List.take_succ_cons, List.mem_cons, not_or] at h
      simp only [List.filter_cons, ne_eq, Ne.symm h.1, not_false_eq_true, decide_true, if_true,
        List.take_succ_cons]
      rw [ih h.2 (by omega)]

theorem adel_map {d : List (K × V)} (hn : (d.map Prod.fst).Nodup) (k : K) :
    (adel d k).map Prod.fst = (d.map Prod.fst).filter (fun x => decide (x ≠ k)) := by
  induction d with
  | nil => simp [adel]
  | cons p d ih =>
    obtain ⟨k', v⟩ := p
    simp only [List.map_cons, List.nodup_cons] at hn
    by_cases h : k' = k
    · subst h
      simp only [adel, if_true, List.map_cons, List.filter_cons]
      simp only [ne_eq, not_true_eq_false, decide_false, Bool.false_eq_true, if_false]
      exact (filter_notMem hn.1).symm
    · simp [adel, h, ih hn.2]

/-- The keys of the abstract cache, most recent first. -/
def recent (t : ACache K V) : List K := (t.entries.map Prod.fst).reverse

/-- The abstract cache of a link wrapper after the uses `us` (newest first), with `c = some N` if
it is full with `N` entries. -/
def LInv (t : ACache K V) (us : List K) : Option Nat → Prop
  | none => t.full = false ∧ recent t = distinct us
  | some N => t.full = true ∧ 1 ≤ N ∧ N ≤ (distinct us).length ∧ recent t = (distinct us).take N

theorem LInv.init : LInv (ACache.init : ACache K V) [] none := ⟨rfl, rfl⟩

theorem LInv.nodup {t : ACache K V} {us c} (h : LInv t us c) : (t.entries.map Prod.fst).Nodup := by
  rw [← List.nodup_reverse]
  cases c with
  | none => rw [show (t.entries.map Prod.fst).reverse = recent t from rfl, h.2]; exact distinct_nodup _
  | some N =>
    rw [show (t.entries.map Prod.fst).reverse = recent t from rfl, h.2.2.2]
    exact (distinct_nodup _).sublist (List.take_sublist _ _)

/-- What the cap is after inserting a new key. -/
def capAfter (m : Mode) (len avail : Nat) : Option Nat → Option Nat
  | some N => some N
  | none => if fullAfter m len avail then some len else none

theorem alookup_hit {m : Mode} (hm : m.isLink = true) {t : ACache K V} {k : K} {us c}
    (h : LInv t us c) (hk : k ∈ recent t) :
    ∃ t' v, alookup m t k = (t', some v) ∧ LInv t' (k :: us) c ∧ aget t.entries k = some v ∧
      t'.hits = t.hits + 1 ∧ t'.misses = t.misses := by
  have hk' : k ∈ t.entries.map Prod.fst := by simpa [recent] using hk
  cases hg : aget t.entries k with
  | none => exact absurd hk' ((aget_none_iff _ _).1 hg)
  | some v =>
    refine ⟨{ t with entries := adel t.entries k ++ [(k, v)], hits := t.hits + 1 }, v, ?_, ?_, rfl, rfl, rfl⟩
    · cases m <;> simp_all [Mode.isLink, alookup]
    have hr : recent { t with entries := adel t.entries k ++ [(k, v)], hits := t.hits + 1 }
        = k :: (recent t).filter (fun x => decide (x ≠ k)) := by
      simp only [recent, List.map_append, List.reverse_append, List.map_cons, List.map_nil,
        List.reverse_cons, List.reverse_nil, List.nil_append, List.singleton_append,
        adel_map h.nodup, List.filter_reverse]
    cases c with
    | none => exact ⟨h.1, by rw [hr, h.2]; rfl⟩
    | some N =>
      obtain ⟨h1, h2, h3, h4⟩ := h
      have hkt : k ∈ (distinct us).take N := h4 ▸ hk
      refine ⟨h1, h2, ?_, ?_⟩
      · simp only [distinct, List.length_cons]
        have hm : k ∈ distinct us := List.mem_of_mem_take hkt
        have hf : (distinct us).length ≤ ((distinct us).filter (fun x => decide (x ≠ k))).length + 1 := by
          have e : ((distinct us).filter (fun x => decide (x ≠ k))) = (distinct us).erase k := by
            rw [List.Nodup.erase_eq_filter (distinct_nodup us)]
            congr 1; funext x
            by_cases hx : x = k <;> simp [hx]
          rw [e, List.length_erase_of_mem hm]; omega
        omega
      · rw [hr, h4, take_filter_mem (distinct_nodup us) hkt]
        obtain ⟨M, rfl⟩ : ∃ M, N = M + 1 := ⟨N - 1, by omega⟩
        simp [distinct]

theorem alookup_miss {m : Mode} {t : ACache K V} {k : K} (hk : k ∉ recent t) :
    alookup m t k = (t, none) := by
  have hk' : k ∉ t.entries.map Prod.fst := by simpa [recent] using hk
  have := (aget_none_iff _ _).2 hk'
  cases m <;> simp [alookup, this]

theorem ainsert_link {m : Mode} (hm : m.isLink = true) {t : ACache K V} {k : K} {us c}
    (h : LInv t us c) (hk : k ∉ recent t) (v : V) (avail : Nat) :
    LInv (ainsert m t k v avail) (k :: us) (capAfter m ((distinct us).length + 1) avail c) ∧
    (ainsert m t k v avail).hits = t.hits ∧ (ainsert m t k v avail).misses = t.misses + 1 := by
  have hk' : k ∉ t.entries.map Prod.fst := by simpa [recent] using hk
  have hg := (aget_none_iff _ _).2 hk'
  have e2 : ainsert m t k v avail =
      if t.full then
        { t with entries := t.entries.tail ++ [(k, v)], misses := t.misses + 1 }
      else
        { t with entries := t.entries ++ [(k, v)], misses := t.misses + 1,
                 full := fullAfter m (t.entries.length + 1) avail } := by
    cases m <;> simp_all [Mode.isLink, ainsert]
  rw [e2]
  cases c with
  | some N =>
    obtain ⟨h1, h2, h3, h4⟩ := h
    obtain ⟨M, rfl⟩ : ∃ M, N = M + 1 := ⟨N - 1, by omega⟩
    simp only [h1, if_true, capAfter]
    have hkt : k ∉ (distinct us).take (M + 1) := h4 ▸ hk
    refine ⟨⟨rfl, h2, ?_, ?_⟩, trivial, trivial⟩
    · simp only [distinct, List.length_cons]
      have h5 := congrArg List.length (take_filter_notMem hkt (Nat.le_refl _))
      simp only [List.length_take] at h5
      omega
    · have : recent (⟨t.entries.tail ++ [(k, v)], t.hits, t.misses + 1, true⟩ : ACache K V)
          = k :: (recent t).dropLast := by
        simp [recent, List.map_tail]
      rw [this, h4]
      simp only [distinct, List.take_succ_cons]
      rw [take_filter_notMem hkt (Nat.le_succ _)]
      congr 1
      rw [List.dropLast_eq_take, List.length_take, List.take_take]
      congr 1; omega
  | none =>
    obtain ⟨h1, h2⟩ := h
    simp only [h1, Bool.false_eq_true, if_false]
    have hlen : t.entries.length = (distinct us).length := by
      rw [← h2]; simp [recent]
    have hkd : k ∉ distinct us := h2 ▸ hk
    have hd : distinct (k :: us) = k :: distinct us := by
      simp only [distinct]; rw [filter_notMem hkd]
    have hrec : ∀ b, recent (⟨t.entries ++ [(k, v)], t.hits, t.misses + 1, b⟩ : ACache K V) = distinct (k :: us) := by
      intro b; rw [hd, ← h2]; simp [recent]
    refine ⟨?_, trivial, trivial⟩
    rw [hlen]
    simp only [capAfter]
    cases hf : fullAfter m ((distinct us).length + 1) avail with
    | false => exact ⟨rfl, hrec _⟩
    | true =>
      refine ⟨rfl, Nat.succ_pos _, ?_, ?_⟩
      · simp [hd]
      · rw [hrec, List.take_of_length_le]; simp [hd]

/-- A call on a link wrapper. -/
theorem acall_link {m : Mode} (hm : m.isLink = true) {t : ACache K V} {us c}
    (h : LInv t us c) (k : K) (o : Except E V) (avail : Nat) :
    (k ∈ recent t → ∃ v, (acall m t k o avail).2 = .ok v false ∧
      LInv (acall m t k o avail).1 (k :: us) c) ∧
    (k ∉ recent t → ∀ e, o = .error e → acall m t k o avail = (t, .raised e)) ∧
    (k ∉ recent t → ∀ v, o = .ok v → (acall m t k o avail).2 = .ok v true ∧
      LInv (acall m t k o avail).1 (k :: us) (capAfter m ((distinct us).length + 1) avail c)) := by
  refine ⟨?_, ?_, ?_⟩
  · intro hk
    obtain ⟨t', v, h1, h2, -⟩ := alookup_hit hm h hk
    exact ⟨v, by simp [acall, h1], by simpa [acall, h1] using h2⟩
  · rintro hk e rfl
    simp [acall, alookup_miss hk]
  · rintro hk v rfl
    simp only [acall, alookup_miss hk, true_and]
    exact (ainsert_link hm h hk v avail).1

end Verif.Cache
