import Verif.Catalogue.Model
import Mathlib.Data.List.Nodup
import Mathlib.Tactic.Linarith

/-! # Lemmas about the catalogue model -/

namespace Verif.Catalogue

variable {P R : Type}

/-! ## Generic list lemmas -/

theorem mapM_some_iff {α β : Type} (f : α → Option β) (l : List α) (r : List β) :
    l.mapM f = some r ↔ l.map f = r.map some := by
  induction l generalizing r with
  | nil => cases r <;> simp
  | cons a l ih =>
    simp only [List.mapM_cons, List.map_cons]
    cases hf : f a with
    | none => cases r <;> simp
    | some b =>
      cases r with
      | nil =>
        cases hm : l.mapM f <;> simp
      | cons c r =>
        have ih' := ih r
        cases hm : l.mapM f with
        | none => simp [hm] at ih' ⊢; intro _; simpa using ih'
        | some r' => simp [hm] at ih' ⊢; intro _; simpa using ih'

theorem mapM_getElem? {α β : Type} {f : α → Option β} {l : List α} {r : List β}
    (h : l.mapM f = some r) (i : Nat) : r[i]? = (l[i]?).bind f := by
  rw [mapM_some_iff] at h
  have := congrArg (fun x => x[i]?) h
  simp only [List.getElem?_map] at this
  cases hl : l[i]? <;> cases hr : r[i]? <;> simp_all

theorem mapM_range_getElem? {β : Type} {f : Nat → Option β} {n : Nat} {r : List β}
    (h : (List.range n).mapM f = some r) {i : Nat} {b : β} (hi : r[i]? = some b) :
    i < n ∧ f i = some b := by
  rw [mapM_getElem? h] at hi
  by_cases hin : i < n
  · rw [List.getElem?_range hin] at hi; exact ⟨hin, hi⟩
  · rw [List.getElem?_eq_none (by simpa using hin)] at hi; cases hi

theorem mapM_exists {α β : Type} {f : α → Option β} {l : List α} (h : ∀ a ∈ l, ∃ b, f a = some b) :
    ∃ r, l.mapM f = some r := by
  induction l with
  | nil => exact ⟨[], rfl⟩
  | cons a l ih =>
    obtain ⟨b, hb⟩ := h a (by simp)
    obtain ⟨r, hr⟩ := ih fun a ha => h a (by simp [ha])
    exact ⟨b :: r, by simp [List.mapM_cons, hb, hr]⟩

theorem filter_map_eq_filterMap {α β γ : Type} (l : List α) (q : α → Bool) (f : α → Option β)
    (F : α → γ) (G : β → γ) (h : ∀ p ∈ l, (q p = true → ∃ y, f p = some y ∧ F p = G y) ∧
      (q p = false → f p = none)) : (l.filter q).map F = (l.filterMap f).map G := by
  induction l with
  | nil => rfl
  | cons a l ih =>
    have ih := ih fun p hp => h p (by simp [hp])
    have ha := h a (by simp)
    cases hq : q a with
    | true =>
      obtain ⟨y, hy, hF⟩ := ha.1 hq
      simp [hq, hy, ih, hF]
    | false => simp [hq, ha.2 hq, ih]

theorem range_map_eq {α β : Type} (l : List α) (H : Nat → β) (F : α → β)
    (h : ∀ i p, l[i]? = some p → H i = F p) : (List.range l.length).map H = l.map F := by
  apply List.ext_getElem?
  intro i
  simp only [List.getElem?_map]
  cases hl : l[i]? with
  | none =>
    rw [List.getElem?_eq_none (by simpa using List.getElem?_eq_none_iff.1 hl)]; rfl
  | some p =>
    rw [List.getElem?_range (List.getElem?_eq_some_iff.1 hl).1]
    simp [h i p hl]

/-! ## Sub-selections -/

theorem offsetsFrom_getElem? (acc : Nat) (sizes : List Nat) (p : Nat) (hp : p ≤ sizes.length) :
    (offsetsFrom acc sizes)[p]? = some (acc + (sizes.take p).sum) := by
  induction sizes generalizing acc p with
  | nil => simp at hp; subst hp; simp [offsetsFrom]
  | cons n ns ih =>
    cases p with
    | zero => simp [offsetsFrom]
    | succ p =>
      simp only [List.length_cons, Nat.add_le_add_iff_right] at hp
      simp [offsetsFrom, ih _ _ hp]; omega

theorem drop_flatten_take (objs : List (List P)) (p : Nat) :
    objs.flatten.drop (((objs.map List.length).take p).sum) = (objs.drop p).flatten := by
  induction objs generalizing p with
  | nil => simp
  | cons o objs ih =>
    cases p with
    | zero => simp
    | succ p => simp [ih, List.drop_append]

theorem objSlice_eq (objs : List (List P)) (p : Nat) (o : List P) (h : objs[p]? = some o) :
    objSlice objs.flatten (objs.map List.length) p = some o := by
  have hlt : p < objs.length := (List.getElem?_eq_some_iff.1 h).1
  unfold objSlice offsets
  rw [offsetsFrom_getElem? 0 _ p (by simp; omega), offsetsFrom_getElem? 0 _ (p + 1) (by simp; omega)]
  simp only [Nat.zero_add]
  rw [drop_flatten_take, List.take_add_one, List.sum_append]
  have hd : objs.drop p = o :: objs.drop (p + 1) := by
    rw [List.drop_eq_getElem_cons hlt]
    rw [List.getElem?_eq_getElem hlt] at h
    rw [Option.some.inj h]
  rw [hd]
  simp [h]

theorem getSubSet_aux (objs : List (List P)) (sel : List Nat) (chosen : List (List P))
    (h : sel.map (objs[·]?) = chosen.map some) (acc : List P) :
    sel.foldlM (init := acc) (fun acc p =>
      (objSlice objs.flatten (objs.map List.length) p).map (acc ++ ·)) =
      some (acc ++ chosen.flatten) := by
  induction sel generalizing chosen acc with
  | nil => cases chosen <;> simp_all
  | cons p sel ih =>
    cases chosen with
    | nil => simp at h
    | cons o chosen =>
      simp only [List.map_cons, List.cons.injEq] at h
      simp only [List.foldlM_cons, objSlice_eq objs p o h.1, Option.map_some]
      exact (ih chosen h.2 (acc ++ o)).trans (by simp)

/-! ## The constructor -/

theorem catArr_eq (minPtcs : Int) (idxCat : List (List P)) :
    catArr (objPass minPtcs idxCat) idxCat =
      (idxCat.filter fun o => decide ((o.length : Int) ≥ minPtcs)).flatten := by
  unfold catArr objPass
  have : ∀ acc, (idxCat.zip (idxCat.map fun o => if (o.length : Int) ≥ minPtcs then (1 : Int) else 0)).foldl
      (fun acc op => if op.2 = 1 then acc ++ op.1 else acc) acc =
      acc ++ (idxCat.filter fun o => decide ((o.length : Int) ≥ minPtcs)).flatten := by
    induction idxCat with
    | nil => simp
    | cons o l ih =>
      intro acc
      by_cases h : (o.length : Int) ≥ minPtcs
      · simp only [List.map_cons, List.zip_cons_cons, List.foldl_cons, h, if_true, decide_true,
          List.filter_cons_of_pos, List.flatten_cons]
        rw [ih]; simp
      · simp only [List.map_cons, List.zip_cons_cons, List.foldl_cons, h, if_false, decide_false,
          Bool.false_eq_true, not_false_eq_true, List.filter_cons_of_neg]
        rw [if_neg (by decide), ih]
  simpa using this []

theorem nonzero_pass (minPtcs : Int) (idxCat : List (List P)) :
    nonzero (objPass minPtcs idxCat) = (List.range idxCat.length).filter fun i =>
      match idxCat[i]? with
      | some o => decide ((o.length : Int) ≥ minPtcs)
      | none => false := by
  unfold nonzero objPass
  simp only [List.length_map]
  apply List.filter_congr
  intro i hi
  have hi : i < idxCat.length := by simpa using hi
  simp only [List.getElem?_map, List.getElem?_eq_getElem hi, Option.map_some]
  split <;> simp_all

/-- Reading at the passing positions is filtering the zipped list. -/
theorem fancy_pass {S : Type} (q : List P → Bool) (idxCat : List (List P)) (vals : List S)
    (hlen : vals.length = idxCat.length) :
    fancy vals ((List.range idxCat.length).filter fun i =>
      match idxCat[i]? with | some o => q o | none => false) =
    some (((idxCat.zip vals).filter fun ov => q ov.1).map Prod.snd) := by
  unfold fancy
  rw [mapM_some_iff]
  have key : ∀ (l : List (List P)) (v : List S), v.length = l.length →
      ((List.range l.length).filter fun i => match l[i]? with | some o => q o | none => false).map
        (fun i => v[i]?) = (((l.zip v).filter fun ov => q ov.1).map Prod.snd).map some := by
    intro l
    induction l with
    | nil => intro v _; simp
    | cons o l ih =>
      intro v hv
      cases v with
      | nil => simp at hv
      | cons x v =>
        have hv : v.length = l.length := by simpa using hv
        have ih := ih v hv
        rw [List.length_cons, List.range_succ_eq_map]
        simp only [List.filter_cons, List.getElem?_cons_zero, List.zip_cons_cons]
        have hshift : ((List.map Nat.succ (List.range l.length)).filter fun i =>
            match (o :: l)[i]? with | some o => q o | none => false).map (fun i => (x :: v)[i]?) =
            ((List.range l.length).filter fun i =>
              match l[i]? with | some o => q o | none => false).map (fun i => v[i]?) := by
          rw [List.filter_map, List.map_map]
          rfl
        by_cases hq : q o = true
        · rw [if_pos hq, if_pos hq, List.map_cons, hshift, ih]; rfl
        · rw [if_neg hq, if_neg hq, hshift, ih]
  exact key idxCat vals hlen

/-! ## Parallel loops -/

theorem iter1_loc {nbShs shLen : List Int} {r : List R} {m : Int} {p : Nat}
    {a : List (Loc × Cell R)} (h : iter1 nbShs shLen r m p = some a) :
    ∀ x ∈ a, x.1 = .pass p ∨ x.1 = .size p ∨ x.1 = .r200 p := by
  unfold iter1 at h
  simp only [Option.bind_eq_bind, Option.bind_eq_some_iff] at h
  obtain ⟨n, -, w, hw, r, -, h⟩ := h
  obtain rfl := Option.some.inj h
  intro x hx
  rcases List.mem_append.1 hx with hx | hx
  · unfold passWrites at hw
    split at hw
    · obtain ⟨len, -, rfl⟩ := Option.map_eq_some_iff.1 hw
      split at hx
      · simp at hx; rcases hx with rfl | rfl <;> simp
      · simp at hx
    · obtain rfl := Option.some.inj hw; simp at hx
  · simp at hx; subst hx; simp

theorem iter1_disjoint {nbShs shLen : List Int} {r : List R} {m : Int} {n : Nat}
    {its : List (List (Loc × Cell R))}
    (h : (List.range n).mapM (iter1 nbShs shLen r m) = some its) : Par.Disjoint its := by
  intro i j a b hi hj hne x hx y hy heq
  have h1 := iter1_loc (mapM_range_getElem? h hi).2 x hx
  have h2 := iter1_loc (mapM_range_getElem? h hj).2 y hy
  rw [heq] at h1
  rcases h1 with h1 | h1 | h1 <;> rcases h2 with h2 | h2 | h2 <;> rw [h1] at h2 <;> simp at h2 <;>
    exact hne h2

theorem iter2_loc {nbShs shLen fofs : List Int} {m : Int} {pass : Nat → Int} {compr : Nat → Nat}
    {p : Nat} {a : List (Loc × Cell R)} (h : iter2 nbShs shLen fofs m pass compr p = some a) :
    ∀ x ∈ a, pass p = 1 ∧ ∃ c, x.1 = .cat (compr p) c := by
  unfold iter2 at h
  split at h
  · rename_i hp
    simp only [Option.bind_eq_bind, Option.bind_eq_some_iff] at h
    obtain ⟨n, -, st, -, len, -, h⟩ := h
    obtain rfl := Option.some.inj h
    intro x hx
    unfold cshWrites at hx
    split at hx
    · obtain ⟨k, -, rfl⟩ := List.mem_map.1 hx
      exact ⟨hp, k, rfl⟩
    · simp at hx
  · obtain rfl := Option.some.inj h; simp

theorem iter2_disjoint {nbShs shLen fofs : List Int} {m : Int} {n : Nat} {mem : Loc → Cell R}
    {passing : List Nat} {its : List (List (Loc × Cell R))}
    (hp : passing = (List.range n).filter fun p => decide ((mem (.pass p)).toInt ≠ 0))
    (h : (List.range n).mapM (iter2 nbShs shLen fofs m (fun p => (mem (.pass p)).toInt)
      (rankIn passing)) = some its) : Par.Disjoint its := by
  intro i j a b hi hj hne x hx y hy heq
  obtain ⟨hin, hia⟩ := mapM_range_getElem? h hi
  obtain ⟨hjn, hjb⟩ := mapM_range_getElem? h hj
  obtain ⟨hpi, c, hc⟩ := iter2_loc hia x hx
  obtain ⟨hpj, d, hd⟩ := iter2_loc hjb y hy
  rw [heq, hd] at hc
  simp only [Loc.cat.injEq] at hc
  have hmem : i ∈ passing := by rw [hp]; simp [hin, hpi]
  exact hne ((List.idxOf_inj hmem).1 hc.1.symm)

theorem Phase1.unique {zero : R} {nbShs shLen : List Int} {r : List R} {m : Int}
    {mem mem' : Loc → Cell R} {passing passing' : List Nat}
    (h : Phase1 zero nbShs shLen r m mem passing) (h' : Phase1 zero nbShs shLen r m mem' passing') :
    mem = mem' ∧ passing = passing' := by
  obtain ⟨its, ws, hm, hi, he⟩ := h.run
  obtain ⟨its', ws', hm', hi', he'⟩ := h'.run
  rw [hm] at hm'
  obtain rfl := Option.some.inj hm'
  have : mem = mem' := by rw [he, he']; exact Par.exec_deterministic (iter1_disjoint hm) hi hi' _
  subst this
  exact ⟨rfl, h.passing_eq.trans h'.passing_eq.symm⟩

theorem calcObjCat_unique {zero : R} {nbShs shLen fofs : List Int} {r : List R} {m : Int}
    {out out' : Option (List Int × List R × List Int)}
    (h : CalcObjCat zero nbShs shLen fofs r m out) (h' : CalcObjCat zero nbShs shLen fofs r m out') :
    out = out' := by
  cases h with
  | noGroups h =>
    cases h' with
    | finished mem passing h1 its ws h2 s2 => exact absurd h h1.groups
    | _ => rfl
  | loop1Fails h =>
    cases h' with
    | finished mem passing h1 its ws h2 s2 =>
      obtain ⟨its, ws, hm, -⟩ := h1.run
      rw [h] at hm; cases hm
    | _ => rfl
  | loop2Fails mem passing h1 h2 =>
    cases h' with
    | finished mem' passing' h1' its ws h2' s2 =>
      obtain ⟨rfl, rfl⟩ := h1.unique h1'
      rw [h2] at h2'; cases h2'
    | _ => rfl
  | finished mem passing h1 its ws h2 s2 =>
    cases h' with
    | noGroups h => exact absurd h h1.groups
    | loop1Fails h =>
      obtain ⟨its, ws, hm, -⟩ := h1.run
      rw [h] at hm; cases hm
    | loop2Fails mem' passing' h1' h2' =>
      obtain ⟨rfl, rfl⟩ := h1.unique h1'
      rw [h2] at h2'; cases h2'
    | finished mem' passing' h1' its' ws' h2' s2' =>
      obtain ⟨rfl, rfl⟩ := h1.unique h1'
      rw [h2] at h2'
      obtain rfl := Option.some.inj h2'
      rw [Par.exec_deterministic (iter2_disjoint h1.passing_eq h2) s2 s2' mem]

theorem calcObjCat_exists (zero : R) (nbShs shLen fofs : List Int) (r : List R) (m : Int) :
    ∃ out, CalcObjCat zero nbShs shLen fofs r m out := by
  by_cases h0 : nbShs.length = 0
  · exact ⟨_, .noGroups h0⟩
  cases h1 : (List.range nbShs.length).mapM (iter1 nbShs shLen r m) with
  | none => exact ⟨_, .loop1Fails h1⟩
  | some its =>
    have hP : Phase1 zero nbShs shLen r m (Par.exec (initMem zero) its.flatten) _ :=
      ⟨h0, ⟨its, _, h1, .sequential its, rfl⟩, rfl⟩
    cases h2 : (List.range nbShs.length).mapM (iter2 (R := R) nbShs shLen fofs m
        (fun p => ((Par.exec (initMem zero) its.flatten) (.pass p)).toInt) (rankIn _)) with
    | none => exact ⟨_, .loop2Fails _ _ hP h2⟩
    | some its2 => exact ⟨_, .finished _ _ hP its2 _ h2 (.sequential its2)⟩

end Verif.Catalogue
