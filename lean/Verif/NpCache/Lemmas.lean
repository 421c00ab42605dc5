import Verif.NpCache.Spec
import Mathlib.Tactic.Ring
import Mathlib.Data.List.OfFn

/-! # Lemmas about flattening, freezing and keys -/

namespace Verif.NpCache

theorem flatten_length {α : Type} : ∀ (s : List Nat) (a : Nd α s), (flatten s a).length = size s
  | [], _ => rfl
  | n :: s, a => by
    have : ∀ i, (flatten s (a i)).length = size s := fun i => flatten_length s (a i)
    simp only [flatten, List.length_flatten, List.map_ofFn, Function.comp_def, this]
    simp [size]

theorem take_drop_flatten {α : Type} {n k : Nat} (f : Fin n → List α) (hf : ∀ i, (f i).length = k)
    (i : Fin n) : (((List.ofFn f).flatten).drop (i.1 * k)).take k = f i := by
  induction n with
  | zero => exact i.elim0
  | succ n ih =>
    rw [List.ofFn_succ, List.flatten_cons]
    refine Fin.cases ?_ (fun j => ?_) i
    · simp only [Fin.val_zero, Nat.zero_mul, List.drop_zero]
      rw [List.take_append_of_le_length (by rw [hf]), List.take_of_length_le (by rw [hf])]
    · have : (j.succ : Nat) * k = (f 0).length + j.1 * k := by
        rw [hf, Fin.val_succ]; ring
      rw [this, List.drop_append, List.drop_of_length_le (by omega), List.nil_append,
        Nat.add_sub_cancel_left]
      exact ih (fun i => f i.succ) (fun i => hf _) j

theorem reshape_flatten {α : Type} : ∀ (s : List Nat) (a : Nd α s),
    reshape s (flatten s a) = some a
  | [], _ => rfl
  | n :: s, a => by
    have hl : (flatten (n :: s) a).length = n * size s := by
      rw [flatten_length]; simp [size]
    have hp : ∀ i : Fin n, reshape s (((flatten (n :: s) a).drop (i.1 * size s)).take (size s))
        = some (a i) := by
      intro i
      have := take_drop_flatten (fun i => flatten s (a i)) (fun i => flatten_length s (a i)) i
      simp only [flatten]
      rw [this, reshape_flatten s (a i)]
    simp only [reshape, hl, if_true]
    rw [dif_pos (by intro i; rw [hp]; rfl)]
    congr 1
    funext i
    simp only [hp, Option.get_some]

theorem ndRel_iff (R : Num → Num → Prop) : ∀ (s : List Nat) (a b : Nd Num s),
    List.Forall₂ R (flatten s a) (flatten s b) ↔ NdRel R s a b
  | [], a, b => ⟨fun h => by cases h; assumption, fun h => .cons h .nil⟩
  | n :: s, a, b => by
    constructor
    · intro h i
      rw [← ndRel_iff R s]
      have := List.forall₂_take (size s) (List.forall₂_drop (i.1 * size s) h)
      simp only [flatten] at this
      rwa [take_drop_flatten (fun i => flatten s (a i)) (fun i => flatten_length s (a i)) i,
        take_drop_flatten (fun i => flatten s (b i)) (fun i => flatten_length s (b i)) i] at this
    · intro h
      apply List.rel_flatten
      rw [List.forall₂_iff_get]
      refine ⟨by simp, fun i h1 h2 => ?_⟩
      simp only [List.get_eq_getElem, List.getElem_ofFn]
      exact (ndRel_iff R s _ _).2 (h _)

theorem Documented.zero_cons {v : Val} {vs : List Val} (h : Documented 0 0 (v :: vs)) :
    Documented 0 0 vs ∧ (∀ d s a, v ≠ .arr d s a) ∧ ∀ l, v ≠ .lists l := by
  refine ⟨⟨Nat.zero_le _, fun i hi => ?_⟩, ?_⟩
  · obtain ⟨-, -, h3⟩ := h.2 (i + 1) (by simpa using hi)
    refine ⟨fun h => by omega, fun _ h => by omega, fun _ => ?_⟩
    simpa using h3 (by omega)
  · exact (h.2 0 (by simp)).2.2 (by omega)

theorem Documented.list_cons {l : Nat} {v : Val} {vs : List Val}
    (h : Documented 0 (l + 1) (v :: vs)) : Documented 0 l vs ∧ ∃ x, v = .lists x := by
  refine ⟨⟨by have := h.1; simp at this ⊢; omega, fun i hi => ?_⟩, ?_⟩
  · obtain ⟨-, h2, h3⟩ := h.2 (i + 1) (by simpa using hi)
    refine ⟨fun h => by omega, fun _ h => ?_, fun _ => ?_⟩
    · simpa using h2 (by omega) (by omega)
    · simpa using h3 (by omega)
  · exact (h.2 0 (by simp)).2.1 (by omega) (by omega)

theorem Documented.arr_cons {a l : Nat} {v : Val} {vs : List Val}
    (h : Documented (a + 1) l (v :: vs)) : Documented a l vs ∧ ∃ d s x, v = .arr d s x := by
  refine ⟨⟨by have := h.1; simp at this ⊢; omega, fun i hi => ?_⟩, ?_⟩
  · obtain ⟨h1, h2, h3⟩ := h.2 (i + 1) (by simpa using hi)
    refine ⟨fun _ => ?_, fun _ h => ?_, fun _ => ?_⟩
    · simpa using h1 (by omega)
    · simpa using h2 (by omega) (by omega)
    · simpa using h3 (by omega)
  · exact (h.2 0 (by simp)).1 (by omega)

theorem freeze_thaw : ∀ (nbA nbL : Nat) (args : List Val), Documented nbA nbL args →
    ∃ fr ds args', freeze nbA nbL args = .ok (fr, ds) ∧ thaw nbA nbL fr ds = .ok args' ∧
      List.Forall₂ SameValue args args'
  | 0, 0, [], _ => ⟨[], [], [], rfl, rfl, .nil⟩
  | 0, 0, v :: vs, h => by
    obtain ⟨h1, h2, h3⟩ := h.zero_cons
    obtain ⟨fr, ds, args', i1, i2, i3⟩ := freeze_thaw 0 0 vs h1
    cases v with
    | arr d s a => exact absurd rfl (h2 d s a)
    | lists l => exact absurd rfl (h3 l)
    | num x => exact ⟨.num x :: fr, ds, .num x :: args', by simp [freeze, i1, Except.map],
        by simp [thaw, i2, Except.map], .cons rfl i3⟩
    | str x => exact ⟨.str x :: fr, ds, .str x :: args', by simp [freeze, i1, Except.map],
        by simp [thaw, i2, Except.map], .cons rfl i3⟩
    | none => exact ⟨.none :: fr, ds, .none :: args', by simp [freeze, i1, Except.map],
        by simp [thaw, i2, Except.map], .cons trivial i3⟩
  | 0, l + 1, [], h => by have := h.1; simp at this
  | 0, l + 1, v :: vs, h => by
    obtain ⟨h1, x, rfl⟩ := h.list_cons
    obtain ⟨fr, ds, args', i1, i2, i3⟩ := freeze_thaw 0 l vs h1
    exact ⟨.tups x :: fr, ds, .lists x :: args', by simp [freeze, i1, Except.map],
        by simp [thaw, i2, Except.map], .cons rfl i3⟩
  | a + 1, l, [], h => by have := h.1; simp at this
  | a + 1, l, v :: vs, h => by
    obtain ⟨h1, d, s, x, rfl⟩ := h.arr_cons
    obtain ⟨fr, ds, args', i1, i2, i3⟩ := freeze_thaw a l vs h1
    refine ⟨.flat ((flatten s x).map (Sc.mk d)) :: fr, s :: ds,
      .arr (arrayDType ((flatten s x).map (Sc.mk d))) s x :: args', by simp [freeze, i1, Except.map],
      ?_, .cons ⟨rfl, ?_⟩ i3⟩
    · have : (flatten s x).map (Sc.val ∘ Sc.mk d) = flatten s x := by
        have : Sc.val ∘ Sc.mk d = id := rfl
        rw [this, List.map_id]
      simp [thaw, i2, Except.map, this, reshape_flatten]
    · intro hs
      have := flatten_length s x
      cases hf : flatten s x with
      | nil => rw [hf] at this; exact absurd this.symm hs
      | cons y ys => rfl

theorem keyNum_ne {c1 c2 : Nat} (hc : c1 ≠ c2) (x y : Sc) :
    keyNum c1 x = keyNum c2 y ↔ NumEq x.val y.val := by
  obtain ⟨dx, x⟩ := x
  obtain ⟨dy, y⟩ := y
  cases x <;> cases y <;> simp [keyNum, NumEq, hc, eq_comm]

theorem keyNum_like {c1 c2 : Nat} (x y : Sc) (h : keyNum c1 x = keyNum c2 y) :
    NumLike x.val y.val := by
  obtain ⟨dx, x⟩ := x
  obtain ⟨dy, y⟩ := y
  cases x <;> cases y <;> simp_all [keyNum, NumLike, NumEq]

theorem map_eq_map_iff {α β γ : Type} (f : α → γ) (g : β → γ) (l : List α) (l' : List β) :
    l.map f = l'.map g ↔ List.Forall₂ (fun x y => f x = g y) l l' := by
  induction l generalizing l' with
  | nil => cases l' <;> simp
  | cons a l ih => cases l' <;> simp [ih]

/-- Keys of two frozen argument lists, item by item. -/
def ItemEq (c1 c2 : Nat) (x y : Frozen) : Prop := keyItem c1 x = keyItem c2 y

theorem makeKey_eq_iff (c1 c2 : Nat) (fr1 fr2 : List Frozen) (ds1 ds2 : List (List Nat)) :
    makeKey c1 fr1 ds1 = makeKey c2 fr2 ds2 ↔ List.Forall₂ (ItemEq c1 c2) fr1 fr2 ∧ ds1 = ds2 := by
  unfold makeKey ItemEq
  rw [← map_eq_map_iff, List.append_assoc, List.append_assoc]
  constructor
  · intro h
    obtain ⟨h1, h2⟩ := List.append_inj' h rfl
    simp at h2
    exact ⟨h1, h2⟩
  · rintro ⟨h1, rfl⟩
    rw [h1]

/-- Freezing reflects and preserves agreement. -/
theorem freeze_agree (R : Num → Num → Prop) (c1 c2 : Nat)
    (hR : ∀ x y : Sc, keyNum c1 x = keyNum c2 y ↔ R x.val y.val) :
    ∀ (nbA nbL : Nat) (args1 args2 : List Val) (fr1 fr2 : List Frozen) (ds1 ds2 : List (List Nat)),
    freeze nbA nbL args1 = .ok (fr1, ds1) → freeze nbA nbL args2 = .ok (fr2, ds2) →
    ((List.Forall₂ (ItemEq c1 c2) fr1 fr2 ∧ ds1 = ds2) ↔ List.Forall₂ (Agree R) args1 args2)
  | 0, 0, [], [], _, _, _, _, h1, h2 => by
    simp [freeze] at h1 h2
    obtain ⟨rfl, rfl⟩ := h1; obtain ⟨rfl, rfl⟩ := h2
    simp
  | 0, 0, [], w :: ws, fr1, fr2, ds1, ds2, h1, h2 => by
    simp [freeze] at h1
    obtain ⟨rfl, rfl⟩ := h1
    cases w <;> simp only [freeze, reduceCtorEq] at h2 <;> rcases hf : freeze 0 0 ws with e | ⟨fr, ds⟩ <;>
      rw [hf] at h2 <;> simp [Except.map] at h2 <;> obtain ⟨rfl, rfl⟩ := h2 <;> simp
  | 0, 0, v :: vs, [], fr1, fr2, ds1, ds2, h1, h2 => by
    simp [freeze] at h2
    obtain ⟨rfl, rfl⟩ := h2
    cases v <;> simp only [freeze, reduceCtorEq] at h1 <;> rcases hf : freeze 0 0 vs with e | ⟨fr, ds⟩ <;>
      rw [hf] at h1 <;> simp [Except.map] at h1 <;> obtain ⟨rfl, rfl⟩ := h1 <;> simp
  | 0, 0, v :: vs, w :: ws, fr1, fr2, ds1, ds2, h1, h2 => by
    cases v <;> simp only [freeze, reduceCtorEq] at h1 <;> rcases hf : freeze 0 0 vs with e | ⟨fr, ds⟩ <;>
      rw [hf] at h1 <;> simp [Except.map] at h1 <;> obtain ⟨rfl, rfl⟩ := h1 <;>
    cases w <;> simp only [freeze, reduceCtorEq] at h2 <;> rcases hg : freeze 0 0 ws with e | ⟨fr', ds'⟩ <;>
      rw [hg] at h2 <;> simp [Except.map] at h2 <;> obtain ⟨rfl, rfl⟩ := h2 <;>
    simp only [List.forall₂_cons, ItemEq, keyItem, Agree, KeyItem.num.injEq, KeyItem.str.injEq,
      reduceCtorEq, false_and, and_assoc, hR, true_and] <;>
    rw [← freeze_agree R c1 c2 hR 0 0 vs ws fr fr' ds ds' hf hg]
  | 0, l + 1, [], _, _, _, _, _, h1, _ => by simp [freeze] at h1
  | 0, l + 1, _ :: _, [], _, _, _, _, _, h2 => by simp [freeze] at h2
  | 0, l + 1, v :: vs, w :: ws, fr1, fr2, ds1, ds2, h1, h2 => by
    cases v <;> simp only [freeze, reduceCtorEq] at h1
    cases w <;> simp only [freeze, reduceCtorEq] at h2
    rcases hf : freeze 0 l vs with e | ⟨fr, ds⟩ <;>
      rw [hf] at h1 <;> simp [Except.map] at h1
    rcases hg : freeze 0 l ws with e | ⟨fr', ds'⟩ <;>
      rw [hg] at h2 <;> simp [Except.map] at h2
    obtain ⟨rfl, rfl⟩ := h1
    obtain ⟨rfl, rfl⟩ := h2
    simp only [List.forall₂_cons, ItemEq, keyItem, Agree, KeyItem.tups.injEq, and_assoc, map_eq_map_iff, hR]
    rw [← freeze_agree R c1 c2 hR 0 l vs ws fr fr' ds ds' hf hg]
  | a + 1, l, [], _, _, _, _, _, h1, _ => by simp [freeze] at h1
  | a + 1, l, _ :: _, [], _, _, _, _, _, h2 => by simp [freeze] at h2
  | a + 1, l, v :: vs, w :: ws, fr1, fr2, ds1, ds2, h1, h2 => by
    cases v <;> simp only [freeze, reduceCtorEq] at h1
    cases w <;> simp only [freeze, reduceCtorEq] at h2
    rename_i d1 s1 a1 d2 s2 a2
    rcases hf : freeze a l vs with e | ⟨fr, ds⟩ <;>
      rw [hf] at h1 <;> simp [Except.map] at h1
    rcases hg : freeze a l ws with e | ⟨fr', ds'⟩ <;>
      rw [hg] at h2 <;> simp [Except.map] at h2
    obtain ⟨rfl, rfl⟩ := h1
    obtain ⟨rfl, rfl⟩ := h2
    rw [List.forall₂_cons, List.forall₂_cons, ← freeze_agree R c1 c2 hR a l vs ws fr fr' ds ds' hf hg]
    have key : (ItemEq c1 c2 (.flat ((flatten s1 a1).map (Sc.mk d1)))
        (.flat ((flatten s2 a2).map (Sc.mk d2))) ∧ s1 = s2) ↔ Agree R (.arr d1 s1 a1) (.arr d2 s2 a2) := by
      simp only [ItemEq, keyItem, KeyItem.flat.injEq, List.map_map, map_eq_map_iff,
        Function.comp_apply, hR, Agree]
      constructor
      · rintro ⟨h, rfl⟩
        exact ⟨rfl, (ndRel_iff R s1 a1 a2).1 h⟩
      · rintro ⟨rfl, h⟩
        exact ⟨(ndRel_iff R s1 a1 a2).2 h, rfl⟩
    rw [← key]
    simp only [List.cons.injEq]
    tauto

end Verif.NpCache
