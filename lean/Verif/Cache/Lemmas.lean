import Verif.Cache.Model
import Mathlib.Data.List.Nodup
import Mathlib.Data.List.Perm.Basic
import Mathlib.Data.List.Forall2

/-! Helper lemmas: the linked ring of `lru_cache` represents a recency list. -/

namespace Verif.Cache

variable {K V E A : Type}

/-! ### dictionary -/

section Dict
variable [DecidableEq K]

theorem Dict.get_eq_some_iff {d : Dict K V} (hn : (d.map Prod.fst).Nodup) (k : K) (x : Slot V) :
    Dict.get d k = some x ↔ (k, x) ∈ d := by
  induction d with
  | nil => simp [Dict.get]
  | cons p d ih =>
    obtain ⟨k', s'⟩ := p
    simp only [List.map_cons, List.nodup_cons] at hn
    by_cases h : k' = k
    · subst h
      have : ∀ x, (k', x) ∉ d := fun x hx => hn.1 (List.mem_map.2 ⟨_, hx, rfl⟩)
      simp [Dict.get, this, eq_comm]
    · simp only [Dict.get, h, if_false, ih hn.2, List.mem_cons, Prod.mk.injEq]
      constructor
      · exact Or.inr
      · rintro (⟨rfl, _⟩ | h') <;> [exact absurd rfl h; exact h']

theorem Dict.get_eq_none_iff (d : Dict K V) (k : K) :
    Dict.get d k = none ↔ k ∉ d.map Prod.fst := by
  induction d with
  | nil => simp [Dict.get]
  | cons p d ih =>
    obtain ⟨k', s'⟩ := p
    by_cases h : k' = k
    · simp [Dict.get, h]
    · simp [Dict.get, h, ih, Ne.symm h]

theorem Dict.set_eq_append {d : Dict K V} {k : K} (h : k ∉ d.map Prod.fst) (x : Slot V) :
    Dict.set d k x = d ++ [(k, x)] := by
  induction d with
  | nil => simp [Dict.set]
  | cons p d ih =>
    obtain ⟨k', s'⟩ := p
    simp only [List.map_cons, List.mem_cons, not_or] at h
    simp [Dict.set, Ne.symm h.1, ih h.2]

theorem Dict.del_perm {d d' : Dict K V} {k : K} {x : Slot V} (hn : (d.map Prod.fst).Nodup)
    (h : d.Perm ((k, x) :: d')) : (Dict.del d k).Perm d' := by
  induction d generalizing d' with
  | nil => simpa using h.length_eq
  | cons p d ih =>
    obtain ⟨k', s'⟩ := p
    simp only [List.map_cons, List.nodup_cons] at hn
    by_cases hk : k' = k
    · subst hk
      have hm : (k', x) ∈ (k', s') :: d := h.symm.mem_iff.1 (by simp)
      have : s' = x := by
        rcases List.mem_cons.1 hm with h1 | h1
        · simpa using h1.symm
        · exact absurd (List.mem_map.2 ⟨_, h1, rfl⟩) hn.1
      subst this
      simpa [Dict.del] using h
    · have hm : (k', s') ∈ d' := by
        have : (k', s') ∈ (k, x) :: d' := h.mem_iff.1 (by simp)
        rcases List.mem_cons.1 this with h1 | h1
        · exact absurd (by simpa using congrArg Prod.fst h1) hk
        · exact h1
      obtain ⟨d'', hd''⟩ := List.append_of_mem hm
      obtain ⟨t, hd''⟩ := hd''
      have hp : d'.Perm ((k', s') :: (d'' ++ t)) := by rw [hd'']; exact List.perm_middle
      have h2 : d.Perm ((k, x) :: (d'' ++ t)) := by
        have := h.trans ((hp.cons (k, x)).trans (List.Perm.swap _ _ _))
        exact this.cons_inv
      simp only [Dict.del, hk, if_false]
      exact ((ih hn.2 h2).cons _).trans hp.symm

end Dict

/-! ### doubly linked segments -/

/-- `Seg prev next x l y`: following `next` from `x` visits exactly `l` and then `y`, and the
`prev` pointers are the converse. -/
def Seg (prev next : Addr → Addr) : Addr → List Addr → Addr → Prop
  | x, [], y => next x = y ∧ prev y = x
  | x, a :: l, y => next x = a ∧ prev a = x ∧ Seg prev next a l y

theorem Seg.append {p n : Addr → Addr} (x : Addr) (l1 : List Addr) (a : Addr) (l2 : List Addr)
    (y : Addr) : Seg p n x (l1 ++ a :: l2) y ↔ Seg p n x l1 a ∧ Seg p n a l2 y := by
  induction l1 generalizing x with
  | nil => simp [Seg, and_assoc]
  | cons b l1 ih => simp [Seg, ih, and_assoc]

theorem Seg.congr {p n p' n' : Addr → Addr} {x : Addr} {l : List Addr} {y : Addr}
    (hn : ∀ a ∈ x :: l, n' a = n a) (hp : ∀ a ∈ l ++ [y], p' a = p a)
    (h : Seg p n x l y) : Seg p' n' x l y := by
  induction l generalizing x with
  | nil =>
    simp [Seg] at *
    exact ⟨hn.trans h.1, hp.trans h.2⟩
  | cons b l ih =>
    obtain ⟨h1, h2, h3⟩ := h
    refine ⟨(hn x (by simp)).trans h1, (hp b (by simp)).trans h2, ?_⟩
    exact ih (fun a ha => hn a (by simp at ha ⊢; tauto)) (fun a ha => hp a (by simp at ha ⊢; tauto)) h3

theorem Seg.next_head {p n : Addr → Addr} {x a : Addr} {l : List Addr} {y : Addr}
    (h : Seg p n x (a :: l) y) : n x = a := h.1

/-- last address visited before `y` (or `x`). -/
theorem Seg.prev_last {p n : Addr → Addr} {x : Addr} {l : List Addr} {y : Addr}
    (h : Seg p n x l y) : p y = (x :: l).getLast (by simp) := by
  induction l generalizing x with
  | nil => simpa [Seg] using h.2
  | cons b l ih => simpa using ih h.2.2

/-! ### representation of a recency list -/

/-- The ring of `s` consists of the links `as` (oldest first), holding the entries `es`. -/
structure Rep (s : State K V) (as : List Addr) (es : List (K × V)) : Prop where
  seg : Seg s.prev s.next s.root as s.root
  nodup : (s.root :: as).Nodup
  lt : ∀ a ∈ s.root :: as, a < s.fresh
  ent : List.Forall₂ (fun a (e : K × V) => s.key a = some e.1 ∧ s.result a = some e.2) as es
  dict : s.cache.Perm (List.zipWith (fun a (e : K × V) => (e.1, Slot.link a)) as es)
  keys : (es.map Prod.fst).Nodup

theorem zipWith_fst (as : List Addr) (es : List (K × V)) (h : as.length = es.length) :
    (List.zipWith (fun a (e : K × V) => (e.1, (Slot.link a : Slot V))) as es).map Prod.fst
      = es.map Prod.fst := by
  induction as generalizing es with
  | nil => cases es <;> simp_all
  | cons a as ih =>
    cases es with
    | nil => simp at h
    | cons e es => simp at h; simp [ih es h]

theorem Rep.len {s : State K V} {as es} (h : Rep s as es) : as.length = es.length :=
  h.ent.length_eq

theorem Rep.cacheLen {s : State K V} {as es} (h : Rep s as es) : s.cache.length = es.length := by
  rw [h.dict.length_eq]; simp [h.len]

theorem Rep.dictKeys {s : State K V} {as es} (h : Rep s as es) :
    (s.cache.map Prod.fst).Perm (es.map Prod.fst) := by
  have := h.dict.map Prod.fst
  rwa [zipWith_fst _ _ h.len] at this

theorem Rep.dictNodup {s : State K V} {as es} (h : Rep s as es) :
    (s.cache.map Prod.fst).Nodup := h.dictKeys.nodup_iff.2 h.keys

theorem Rep.get_none [DecidableEq K] {s : State K V} {as es} (h : Rep s as es) (k : K) :
    s.cache.get k = none ↔ k ∉ es.map Prod.fst := by
  rw [Dict.get_eq_none_iff, h.dictKeys.mem_iff]

/-- splitting at an entry -/
theorem Rep.split {s : State K V} {as : List Addr} {e1 e2 : List (K × V)} {e : K × V}
    (h : Rep s as (e1 ++ e :: e2)) :
    ∃ a1 a a2, as = a1 ++ a :: a2 ∧ a1.length = e1.length ∧ a2.length = e2.length := by
  have hl := h.len
  simp at hl
  have h1 : e1.length < as.length := by omega
  refine ⟨as.take e1.length, as[e1.length], as.drop (e1.length + 1), ?_, ?_, ?_⟩
  · rw [List.getElem_cons_drop, List.take_append_drop]
  · simp; omega
  · simp; omega

theorem zipWith_split {α β γ : Type} (f : α → β → γ) {a1 : List α} {a : α} {a2 : List α} {b1 : List β} {b : β}
    {b2 : List β} (h : a1.length = b1.length) :
    List.zipWith f (a1 ++ a :: a2) (b1 ++ b :: b2)
      = List.zipWith f a1 b1 ++ f a b :: List.zipWith f a2 b2 := by
  rw [List.zipWith_append h]; rfl

theorem forall2_split {α β : Type} {R : α → β → Prop} {a1 : List α} {a : α} {a2 : List α} {b1 : List β} {b : β}
    {b2 : List β} (h : a1.length = b1.length) :
    List.Forall₂ R (a1 ++ a :: a2) (b1 ++ b :: b2) ↔
      List.Forall₂ R a1 b1 ∧ R a b ∧ List.Forall₂ R a2 b2 := by
  induction a1 generalizing b1 with
  | nil => cases b1 <;> simp_all
  | cons x a1 ih =>
    cases b1 with
    | nil => simp at h
    | cons y b1 => simp at h; simp [ih h, and_assoc]

theorem forall2_append {α β : Type} {R : α → β → Prop} {a1 a2 : List α} {b1 b2 : List β}
    (h1 : List.Forall₂ R a1 b1) (h2 : List.Forall₂ R a2 b2) :
    List.Forall₂ R (a1 ++ a2) (b1 ++ b2) := by
  induction h1 with
  | nil => simpa
  | cons h _ ih => exact .cons h ih

theorem Rep.get_some [DecidableEq K] {s : State K V} {a1 : List Addr} {a : Addr} {a2 : List Addr}
    {e1 e2 : List (K × V)} {e : K × V}
    (h : Rep s (a1 ++ a :: a2) (e1 ++ e :: e2)) (hl : a1.length = e1.length) :
    s.cache.get e.1 = some (.link a) ∧ s.result a = some e.2 := by
  refine ⟨?_, ((forall2_split hl).1 h.ent).2.1.2⟩
  rw [Dict.get_eq_some_iff h.dictNodup, h.dict.mem_iff, zipWith_split _ hl]
  simp

theorem upd_same {β : Type} (f : Addr → β) (a : Addr) (b : β) : upd f a b a = b := by simp [upd]
theorem upd_ne {β : Type} (f : Addr → β) {a x : Addr} (b : β) (h : x ≠ a) : upd f a b x = f x := by
  simp [upd, h]

theorem Seg.retarget {p n p' n' : Addr → Addr} {x : Addr} {l : List Addr} {y y' : Addr}
    (h : Seg p n x l y) (hnd : (x :: l).Nodup)
    (hn : ∀ b ∈ x :: l, b ≠ (x :: l).getLast (by simp) → n' b = n b)
    (hlast : n' ((x :: l).getLast (by simp)) = y')
    (hp : ∀ b ∈ l, p' b = p b) (hy : p' y' = (x :: l).getLast (by simp)) :
    Seg p' n' x l y' := by
  induction l generalizing x with
  | nil => simpa [Seg] using ⟨hlast, hy⟩
  | cons b l ih =>
    obtain ⟨h1, h2, h3⟩ := h
    have hne : x ≠ (x :: b :: l).getLast (by simp) := by
      intro hx
      have hm : (x :: b :: l).getLast (by simp) ∈ b :: l := by
        rw [List.getLast_cons (by simp)]; exact List.getLast_mem _
      rw [← hx] at hm
      exact (List.nodup_cons.1 hnd).1 hm
    refine ⟨(hn x (by simp) hne).trans h1, (hp b (by simp)).trans h2, ?_⟩
    refine ih h3 (List.nodup_cons.1 hnd).2 ?_ ?_ (fun c hc => hp c (by simp [hc])) ?_
    · intro c hc hc'
      exact hn c (List.mem_cons_of_mem _ hc) (by rw [List.getLast_cons (by simp)]; exact hc')
    · rw [List.getLast_cons (by simp)] at hlast; exact hlast
    · rw [List.getLast_cons (by simp)] at hy; exact hy

theorem Rep.of_perm_last {as : List Addr} {a : Addr} {a2 : List Addr} {e2 es : List (K × V)}
    {e : K × V} (hl : as.length = es.length) (hl2 : a2.length = e2.length) :
    (List.zipWith (fun a (e : K × V) => (e.1, (Slot.link a : Slot V))) (as ++ a :: a2)
      (es ++ e :: e2)).Perm
    (List.zipWith (fun a (e : K × V) => (e.1, (Slot.link a : Slot V))) (as ++ a2 ++ [a])
      (es ++ e2 ++ [e])) := by
  rw [zipWith_split _ hl, List.zipWith_append (by simp [hl, hl2]), List.zipWith_append hl]
  simp only [List.zipWith_cons_cons, List.zipWith_nil_left]
  exact List.perm_middle.trans ((List.perm_append_singleton _ _).symm)

/-- Hit: the link is moved to the recent end of the ring (caching.py:104-113). -/
theorem Rep.moveToFront [DecidableEq K] {s : State K V} {a1 : List Addr} {a : Addr} {a2 : List Addr}
    {e1 e2 : List (K × V)} {e : K × V}
    (h : Rep s (a1 ++ a :: a2) (e1 ++ e :: e2)) (hl : a1.length = e1.length)
    (hl2 : a2.length = e2.length) :
    Rep (moveToFront s a) (a1 ++ a2 ++ [a]) (e1 ++ e2 ++ [e]) := by
  have hnd := h.nodup
  have hseg := h.seg
  rw [Seg.append] at hseg
  obtain ⟨s1, s2⟩ := hseg
  have hperm : (a1 ++ a2 ++ [a]).Perm (a1 ++ a :: a2) :=
    (List.perm_append_singleton _ _).trans List.perm_middle.symm
  have hent := (forall2_split hl).1 h.ent
  have hra1 : (s.root :: a1).Nodup :=
    hnd.sublist (List.Sublist.cons_cons _ (List.sublist_append_left _ _))
  have hra : s.root ≠ a := by
    intro hh; simp [hh] at hnd
  have hlp : s.prev a = (s.root :: a1).getLast (by simp) := s1.prev_last
  have hlpm : (s.root :: a1).getLast (by simp) ∈ s.root :: a1 := List.getLast_mem _
  have ha_notin : a ∉ s.root :: a1 := by
    intro hh
    simp [List.nodup_append] at hnd
    rcases List.mem_cons.1 hh with h1 | h1
    · exact hra h1.symm
    · exact (hnd.2.2.2 a h1).1 rfl
  have hlpa : (s.root :: a1).getLast (by simp) ≠ a := fun hh => ha_notin (hh ▸ hlpm)
  constructor
  · -- ring
    cases a2 with
    | nil =>
      have hnx : s.next a = s.root := s2.1
      have hpr : s.prev s.root = a := s2.2
      simp only [List.append_nil]
      show Seg _ _ s.root (a1 ++ a :: []) s.root
      rw [Seg.append]
      simp only [Cache.moveToFront, hnx, hlp, upd_same]
      refine ⟨?_, ?_⟩
      · refine s1.retarget hra1 ?_ ?_ ?_ ?_
        · intro b hb hb'
          have : b ≠ a := fun hh => ha_notin (hh ▸ hb)
          simp [upd, this, hb']
        · simp [upd, hlpa]
        · intro b hb
          have h1 : b ≠ a := fun hh => ha_notin (hh ▸ List.mem_cons_of_mem _ hb)
          have h2 : b ≠ s.root := fun hh => (List.nodup_cons.1 hra1).1 (hh ▸ hb)
          simp [upd, h1, h2]
        · simp [upd]
      · simp [Seg, upd, hra]
    | cons c t =>
      have hnx : s.next a = c := s2.1
      have hsplit : ∀ x ∈ s.root :: a1, x ∉ a :: c :: t := by
        intro x hx hx'
        have : (s.root :: a1 ++ a :: c :: t).Nodup := by simpa using hnd
        exact (List.nodup_append.1 this).2.2 x hx x hx' rfl
      have hact : (a :: c :: t).Nodup := by
        have : (s.root :: a1 ++ a :: c :: t).Nodup := by simpa using hnd
        exact (List.nodup_append.1 this).2.1
      have hcr : s.root ≠ c := fun hh => hsplit s.root (by simp) (by simp [hh])
      have hca : a ≠ c := fun hh => by simp [hh] at hact
      have s3 : Seg s.prev s.next c t s.root := s2.2.2
      have hlast : s.prev s.root = (c :: t).getLast (by simp) := s3.prev_last
      have hlm : (c :: t).getLast (by simp) ∈ c :: t := List.getLast_mem _
      have hlr : (c :: t).getLast (by simp) ∉ s.root :: a1 :=
        fun hh => hsplit _ hh (List.mem_cons_of_mem _ hlm)
      have hla : (c :: t).getLast (by simp) ≠ a := fun hh => (List.nodup_cons.1 hact).1 (hh ▸ hlm)
      have hcm : c ∉ s.root :: a1 := fun hh => hsplit _ hh (by simp)
      show Seg _ _ s.root (a1 ++ c :: t ++ a :: []) s.root
      rw [Seg.append, Seg.append]
      have e1 : (upd s.prev c ((s.root :: a1).getLast (by simp))) s.root
          = (c :: t).getLast (by simp) := by rw [upd_ne _ _ hcr, hlast]
      simp only [Cache.moveToFront, hnx, hlp, e1]
      refine ⟨⟨?_, ?_⟩, ?_⟩
      · refine s1.retarget hra1 ?_ ?_ ?_ ?_
        · intro b hb hb'
          have h1 : b ≠ a := fun hh => ha_notin (hh ▸ hb)
          have h2 : b ≠ (c :: t).getLast (by simp) := fun hh => hlr (hh ▸ hb)
          simp [upd, h1, hb', h2]
        · have h2 : (s.root :: a1).getLast (by simp) ≠ (c :: t).getLast (by simp) :=
            fun hh => hlr (hh ▸ hlpm)
          simp [upd, hlpa, h2]
        · intro b hb
          have h1 : b ≠ a := fun hh => ha_notin (hh ▸ List.mem_cons_of_mem _ hb)
          have h2 : b ≠ s.root := fun hh => (List.nodup_cons.1 hra1).1 (hh ▸ hb)
          have h3 : b ≠ c := fun hh => hcm (hh ▸ List.mem_cons_of_mem _ hb)
          simp [upd, h1, h2, h3]
        · simp [upd, hca.symm, hcr.symm]
      · refine s3.retarget (List.nodup_cons.1 hact).2 ?_ ?_ ?_ ?_
        · intro b hb hb'
          have h1 : b ≠ a := fun hh => (List.nodup_cons.1 hact).1 (hh ▸ hb)
          have h2 : b ≠ (s.root :: a1).getLast (by simp) :=
            fun hh => hsplit _ hlpm (hh ▸ List.mem_cons_of_mem _ hb)
          simp [upd, h1, hb', h2]
        · simp [upd, hla]
        · intro b hb
          have h1 : b ≠ a := fun hh => (List.nodup_cons.1 hact).1 (hh ▸ List.mem_cons_of_mem _ hb)
          have h2 : b ≠ s.root := fun hh => hsplit s.root (by simp) (by rw [← hh]; simp [hb])
          have h3 : b ≠ c := fun hh => by
            have := (List.nodup_cons.1 (List.nodup_cons.1 hact).2).1
            exact this (hh ▸ hb)
          simp [upd, h1, h2, h3]
        · simp [upd]
      · simp [Seg, upd, hra]
  · show (s.root :: (a1 ++ a2 ++ [a])).Nodup
    exact (hperm.cons s.root).nodup_iff.2 hnd
  · intro b hb
    exact h.lt b ((hperm.cons s.root).mem_iff.1 hb)
  · exact forall2_append (forall2_append hent.1 hent.2.2) (.cons hent.2.1 .nil)
  · exact h.dict.trans (Rep.of_perm_last hl hl2)
  · have : ((e1 ++ e2 ++ [e]).map Prod.fst).Perm ((e1 ++ e :: e2).map Prod.fst) :=
      ((List.perm_append_singleton _ _).trans List.perm_middle.symm).map _
    exact this.nodup_iff.2 h.keys

/-- Insertion of a new link before the root (caching.py:144-147). -/
theorem Rep.freshInsert [DecidableEq K] {s : State K V} {as : List Addr} {es : List (K × V)}
    (h : Rep s as es) {k : K} (hk : k ∉ es.map Prod.fst) (v : V) :
    Rep (freshInsert s k v) (as ++ [s.fresh]) (es ++ [(k, v)]) := by
  have hnd := h.nodup
  have hf : s.fresh ∉ s.root :: as := fun hh => absurd (h.lt _ hh) (Nat.lt_irrefl _)
  have hfr : s.root ≠ s.fresh := fun hh => hf (by simp [hh])
  have hlast : s.prev s.root = (s.root :: as).getLast (by simp) := h.seg.prev_last
  have hlm : (s.root :: as).getLast (by simp) ∈ s.root :: as := List.getLast_mem _
  have hlf : (s.root :: as).getLast (by simp) ≠ s.fresh := fun hh => hf (hh ▸ hlm)
  constructor
  · show Seg _ _ s.root (as ++ s.fresh :: []) s.root
    rw [Seg.append]
    simp only [Cache.freshInsert, hlast]
    refine ⟨h.seg.retarget hnd ?_ ?_ ?_ ?_, ?_⟩
    · intro b hb hb'
      have h1 : b ≠ s.fresh := fun hh => hf (hh ▸ hb)
      simp [upd, hb', h1]
    · simp [upd]
    · intro b hb
      have h1 : b ≠ s.fresh := fun hh => hf (hh ▸ List.mem_cons_of_mem _ hb)
      have h2 : b ≠ s.root := fun hh => (List.nodup_cons.1 hnd).1 (hh ▸ hb)
      simp [upd, h1, h2]
    · simp [upd, hfr.symm]
    · simp [Seg, upd, hlf.symm]
  · show (s.root :: (as ++ [s.fresh])).Nodup
    have : (s.root :: (as ++ [s.fresh])).Perm (s.fresh :: s.root :: as) := by
      exact ((List.perm_append_singleton _ _).cons _).trans (List.Perm.swap _ _ _)
    exact this.nodup_iff.2 (List.nodup_cons.2 ⟨hf, hnd⟩)
  · intro b hb
    show b < s.fresh + 1
    have : b ∈ s.root :: as ∨ b = s.fresh := by
      simp at hb ⊢; tauto
    rcases this with h1 | h1
    · exact Nat.lt_succ_of_lt (h.lt b h1)
    · simp [h1]
  · refine forall2_append ?_ (.cons ?_ .nil)
    · have : List.Forall₂ (fun a (e : K × V) => a ∈ as ∧ s.key a = some e.1 ∧ s.result a = some e.2) as es := by
        refine (List.forall₂_and_left _ _).2 ⟨fun _ h => h, h.ent⟩
      refine this.imp ?_
      rintro a e ⟨ha, h1, h2⟩
      have : a ≠ s.fresh := fun hh => hf (hh ▸ List.mem_cons_of_mem _ ha)
      simp [Cache.freshInsert, upd, this, h1, h2]
    · simp [Cache.freshInsert, upd]
  · show (Dict.set s.cache k _).Perm _
    rw [Dict.set_eq_append (by rwa [h.dictKeys.mem_iff]), List.zipWith_append h.len]
    exact h.dict.append_right _
  · rw [List.map_append, List.nodup_append]
    refine ⟨h.keys, by simp, ?_⟩
    intro x hx y hy
    simp at hy
    exact fun hh => hk (hy ▸ hh ▸ hx)

/-- Eviction of the oldest link combined with insertion (caching.py:123-142). -/
theorem Rep.evictInsert [DecidableEq K] {s : State K V} {as : List Addr} {e : K × V}
    {es : List (K × V)}
    (h : Rep s as (e :: es)) {k : K} (hk : k ∉ (e :: es).map Prod.fst) (v : V) :
    ∃ s' as', evictInsert s k v = some s' ∧ Rep s' as' (es ++ [(k, v)]) ∧
      s'.hits = s.hits ∧ s'.misses = s.misses ∧ s'.full = s.full := by
  obtain ⟨a, as, rfl⟩ : ∃ a t, as = a :: t := by
    have := h.len
    cases as with
    | nil => simp at this
    | cons a t => exact ⟨a, t, rfl⟩
  have hnd := h.nodup
  obtain ⟨hn1, hp1, hs⟩ := h.seg
  have hent := List.forall₂_cons.1 h.ent
  have har : a ≠ s.root := fun hh => by simp [hh] at hnd
  have hget : s.cache.get e.1 = some (.link a) :=
    (Rep.get_some (a1 := []) (e1 := []) h rfl).1
  have hras : ∀ b ∈ as, b ≠ s.root ∧ b ≠ a := by
    intro b hb
    simp only [List.nodup_cons, List.mem_cons, not_or] at hnd
    exact ⟨fun hh => hnd.1.2 (hh ▸ hb), fun hh => hnd.2.1 (hh ▸ hb)⟩
  have hdd : (Dict.del s.cache e.1).Perm
      (List.zipWith (fun a (e : K × V) => (e.1, Slot.link a)) as es) :=
    Dict.del_perm h.dictNodup (x := .link a) (by simpa using h.dict)
  have hl : as.length = es.length := by simpa using h.len
  have hkd : k ∉ (Dict.del s.cache e.1).map Prod.fst := by
    rw [(hdd.map Prod.fst).mem_iff, zipWith_fst _ _ hl]
    exact fun hh => hk (by simp; right; simpa using hh)
  have hev : Cache.evictInsert s k v = some { s with
      key := upd (upd s.key s.root (some k)) a none
      result := upd (upd s.result s.root (some v)) a none
      root := a
      cache := (s.cache.del e.1).set k (.link s.root) } := by
    simp only [Cache.evictInsert, hn1, upd_ne _ _ har, hent.1.1, hget]
  refine ⟨_, as ++ [s.root], hev, ?_, ?_⟩
  · constructor
    · show Seg s.prev s.next a (as ++ s.root :: []) a
      rw [Seg.append]
      exact ⟨hs, hn1, hp1⟩
    · show (a :: (as ++ [s.root])).Nodup
      have : (a :: (as ++ [s.root])).Perm (s.root :: a :: as) :=
        ((List.perm_append_singleton _ _).cons _).trans (List.Perm.swap _ _ _)
      exact this.nodup_iff.2 hnd
    · intro b hb
      exact h.lt b (by simp at hb ⊢; tauto)
    · refine forall2_append ?_ (.cons ?_ .nil)
      · have : List.Forall₂ (fun a (e : K × V) => a ∈ as ∧ s.key a = some e.1 ∧ s.result a = some e.2) as es :=
          (List.forall₂_and_left _ _).2 ⟨fun _ h => h, hent.2⟩
        refine this.imp ?_
        rintro b e' ⟨hb, h1, h2⟩
        simp [upd, hras b hb, h1, h2]
      · simp [upd, har.symm]
    · show (Dict.set (Dict.del s.cache e.1) k (.link s.root)).Perm _
      rw [Dict.set_eq_append hkd, List.zipWith_append hl]
      exact hdd.append_right _
    · have hkeys := h.keys
      simp only [List.map_cons, List.nodup_cons] at hkeys
      rw [List.map_append, List.nodup_append]
      refine ⟨hkeys.2, by simp, ?_⟩
      intro x hx y hy
      simp at hy
      exact fun hh => hk (by simp; right; subst hh; subst hy; simpa using hx)
  · exact ⟨rfl, rfl, rfl⟩

theorem Rep.init : Rep (State.init : State K V) [] [] := by
  constructor <;> simp [State.init, Seg]

theorem Rep.clear {s : State K V} {as es} (h : Rep s as es) : Rep (cacheClear s) [] [] := by
  constructor
  · simp [cacheClear, Seg, upd]
  · simp
  · intro b hb; exact h.lt b (by simp at hb ⊢; exact Or.inl hb)
  · simp
  · simp [cacheClear]
  · simp

end Verif.Cache
