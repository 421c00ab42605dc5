import Verif.Catalogue.Lemmas
import Verif.Catalogue.Spec

/-! # `calcObjCat` on consistent tables -/

namespace Verif.Catalogue

variable {R : Type}

/-- Does the group qualify, and the size of its central subhalo. -/
def qual (m : Int) (g : Group R) : Bool :=
  match g.subs with
  | c :: _ => decide (m ≤ c)
  | [] => false

/-- Number of particles of the central subhalo. -/
def csize (g : Group R) : Nat := g.subs.headD 0

theorem prefixSum_nbShs (gs : List (Group R)) (p : Nat) :
    prefixSum (tableNbShs gs) p = (((gs.take p).map fun g => g.subs.length).sum : Nat) := by
  unfold prefixSum tableNbShs
  rw [← List.map_take]
  induction gs.take p with
  | nil => rfl
  | cons g l ih => simp [ih]

theorem prefixSum_fof (gs : List (Group R)) (p : Nat) :
    prefixSum (tableFofSizes gs) p = (startOf gs p : Int) := by
  unfold prefixSum tableFofSizes startOf
  rw [← List.map_take]
  induction gs.take p with
  | nil => rfl
  | cons g l ih => simp [ih]

theorem subs_at (gs : List (Group R)) (p : Nat) (g : Group R) (c : Nat) (cs : List Nat)
    (hg : gs[p]? = some g) (hc : g.subs = c :: cs) :
    (gs.flatMap Group.subs)[((gs.take p).map fun g => g.subs.length).sum]? = some c := by
  induction gs generalizing p with
  | nil => simp at hg
  | cons g' gs ih =>
    cases p with
    | zero =>
      simp only [List.getElem?_cons_zero, Option.some.injEq] at hg
      subst hg
      simp [hc]
    | succ p =>
      simp only [List.getElem?_cons_succ] at hg
      have := ih p hg
      simp only [List.flatMap_cons, List.take_succ_cons, List.map_cons, List.sum_cons]
      rw [List.getElem?_append_right (by omega)]
      simpa using this

theorem readInt_sh (gs : List (Group R)) (p : Nat) (g : Group R) (c : Nat) (cs : List Nat)
    (hg : gs[p]? = some g) (hc : g.subs = c :: cs) :
    readInt (tableShLen gs) (prefixSum (tableNbShs gs) p) = some (c : Int) := by
  rw [prefixSum_nbShs]
  unfold readInt tableShLen
  rw [if_pos (by omega), Int.toNat_natCast, List.getElem?_map, subs_at gs p g c cs hg hc]
  rfl

theorem iter1_eq (gs : List (Group R)) (m : Int) (p : Nat) (g : Group R) (hg : gs[p]? = some g) :
    iter1 (tableNbShs gs) (tableShLen gs) (tableR200 gs) m p =
      some ((if qual m g then [(Loc.pass p, Cell.int 1), (Loc.size p, Cell.int (csize g))] else []) ++
        [(Loc.r200 p, Cell.real g.r200)]) := by
  unfold iter1
  have h1 : (tableNbShs gs)[p]? = some (g.subs.length : Int) := by simp [tableNbShs, hg]
  have h2 : (tableR200 gs)[p]? = some g.r200 := by simp [tableR200, hg]
  have h3 : passWrites (R := R) (tableNbShs gs) (tableShLen gs) m p (g.subs.length : Int) = some
      (if qual m g then [(Loc.pass p, Cell.int 1), (Loc.size p, Cell.int (csize g))] else []) := by
    unfold passWrites
    cases hs : g.subs with
    | nil => simp [qual, hs]
    | cons c cs =>
      rw [if_pos (by simp), readInt_sh gs p g c cs hg hs]
      simp [qual, csize, hs]
  simp only [h1, h2, h3, Option.bind_eq_bind, Option.bind_some]

theorem iter2_eq (gs : List (Group R)) (m : Int) (pass : Nat → Int) (compr : Nat → Nat) (p : Nat)
    (g : Group R) (hg : gs[p]? = some g) (hp : pass p = if qual m g then 1 else 0) :
    iter2 (R := R) (tableNbShs gs) (tableShLen gs) (tableFofSizes gs) m pass compr p =
      some (if qual m g then (List.range (csize g)).map fun (k : Nat) =>
        (Loc.cat (compr p) k, Cell.int ((startOf gs p : Int) + (k : Int))) else []) := by
  unfold iter2
  have hlt : p < gs.length := (List.getElem?_eq_some_iff.1 hg).1
  cases hq : qual m g with
  | false => rw [if_neg (by rw [hp, hq]; decide)]; rfl
  | true =>
    rw [if_pos (by rw [hp, hq]; rfl)]
    have h1 : (tableNbShs gs)[p]? = some (g.subs.length : Int) := by simp [tableNbShs, hg]
    have h2 : prefixSum? (tableFofSizes gs) p = some (startOf gs p : Int) := by
      unfold prefixSum?
      rw [if_pos (by simp [tableFofSizes]; omega), prefixSum_fof]
    cases hs : g.subs with
    | nil => simp [qual, hs] at hq
    | cons c cs =>
      have hmc : m ≤ (c : Int) := by simpa [qual, hs] using hq
      rw [readInt_sh gs p g c cs hg hs, h1, h2]
      have hpos : (g.subs.length : Int) > 0 := by rw [hs]; simp
      simp only [Option.bind_eq_bind, Option.bind_some, cshWrites]
      rw [if_pos ⟨hpos, hmc⟩]
      simp [csize, hs]

theorem exec_range_cat {mem : Loc → Cell R} (row : Nat) (v : Nat → Int) (n k : Nat) (hk : k < n) :
    Par.exec mem ((List.range n).map fun k => (Loc.cat row k, Cell.int (v k))) (.cat row k) =
      Cell.int (v k) := by
  rw [Par.exec_apply, List.filter_map]
  have : (List.range n).filter ((fun (x : Loc × Cell R) => decide (x.1 = Loc.cat row k)) ∘
      fun k => (Loc.cat row k, Cell.int (v k))) = [k] := by
    have h1 : ((fun (x : Loc × Cell R) => decide (x.1 = Loc.cat row k)) ∘
      fun k => (Loc.cat row k, Cell.int (v k))) = fun j => decide (j = k) := by
      funext j; simp
    rw [h1]
    clear h1
    induction n with
    | zero => omega
    | succ n ih =>
      rw [List.range_succ, List.filter_append]
      by_cases hkn : k = n
      · subst hkn
        have : (List.range k).filter (fun j => decide (j = k)) = [] := by
          simp [List.filter_eq_nil_iff]; omega
        rw [this]; simp
      · rw [ih (by omega)]
        have : ¬ n = k := fun h => hkn h.symm
        simp [this]
  rw [this]; rfl

section
variable {zero : R} {gs : List (Group R)} {m : Int} {mem : Loc → Cell R} {passing : List Nat}

theorem phase1_mem (h : Phase1 zero (tableNbShs gs) (tableShLen gs) (tableR200 gs) m mem passing)
    (p : Nat) (g : Group R) (hg : gs[p]? = some g) :
    (mem (.pass p)).toInt = (if qual m g then 1 else 0) ∧
    (mem (.size p)).toInt = (if qual m g then (csize g : Int) else 0) ∧
    mem (.r200 p) = .real g.r200 := by
  obtain ⟨its, ws, hm, hi, rfl⟩ := h.run
  have hlt : p < (tableNbShs gs).length := by
    simpa [tableNbShs] using (List.getElem?_eq_some_iff.1 hg).1
  have hp : its[p]? = some ((if qual m g then
      [(Loc.pass p, Cell.int 1), (Loc.size p, Cell.int (csize g))] else []) ++
        [(Loc.r200 p, Cell.real g.r200)]) := by
    rw [mapM_getElem? hm, List.getElem?_range hlt]
    exact iter1_eq gs m p g hg
  have own : ∀ l, (l = .pass p ∨ l = .size p ∨ l = .r200 p) →
      ∀ (j : Nat) (b : List (Loc × Cell R)), its[j]? = some b → j ≠ p → ∀ y ∈ b, y.1 ≠ l := by
    intro l hl j b hj hne y hy heq
    have := iter1_loc (mapM_range_getElem? hm hj).2 y hy
    rw [heq] at this
    rcases hl with rfl | rfl | rfl <;> simp at this <;> exact hne this.symm
  refine ⟨?_, ?_, ?_⟩
  · rw [Par.exec_owned hi _ _ p _ hp (own _ (by simp))]
    cases qual m g <;> simp [Par.exec, initMem, Cell.toInt, Function.update]
  · rw [Par.exec_owned hi _ _ p _ hp (own _ (by simp))]
    cases qual m g <;> simp [Par.exec, initMem, Cell.toInt, Function.update]
  · rw [Par.exec_owned hi _ _ p _ hp (own _ (by simp))]
    cases qual m g <;> simp [Par.exec, Function.update]

/-- Every finished run on consistent tables yields the expected objects. -/
theorem finished_eq (h : Phase1 zero (tableNbShs gs) (tableShLen gs) (tableR200 gs) m mem passing)
    {its : List (List (Loc × Cell R))} {ws : List (Loc × Cell R)}
    (h2 : (List.range (tableNbShs gs).length).mapM (iter2 (tableNbShs gs) (tableShLen gs)
      (tableFofSizes gs) m (fun p => (mem (.pass p)).toInt) (rankIn passing)) = some its)
    (s2 : Par.Interleaving its ws) :
    output zero (Par.exec mem ws) passing =
      (((expectedObjects m gs).map fun o => o.1).flatten,
        (expectedObjects m gs).map (fun o => o.2.1), (expectedObjects m gs).map (fun o => o.2.2)) := by
  have hlen : (tableNbShs gs).length = gs.length := by simp [tableNbShs]
  have hpass : ∀ p, p ∈ passing → ∃ g, gs[p]? = some g ∧ qual m g = true := by
    intro p hp
    rw [h.passing_eq, hlen] at hp
    simp only [List.mem_filter, List.mem_range, decide_eq_true_eq] at hp
    refine ⟨gs[p], List.getElem?_eq_getElem hp.1, ?_⟩
    have := (phase1_mem h p _ (List.getElem?_eq_getElem hp.1)).1
    cases hq : qual m gs[p] with
    | true => rfl
    | false => rw [hq] at this; exact absurd this hp.2
  have hpass' : passing = (List.range gs.length).filter fun p =>
      match gs[p]? with | some g => qual m g | none => false := by
    rw [h.passing_eq, hlen]
    apply List.filter_congr
    intro p hp
    have hp : p < gs.length := by simpa using hp
    have hg := List.getElem?_eq_getElem hp
    rw [(phase1_mem h p _ hg).1, hg]
    by_cases hq : qual m gs[p] = true
    · simp [hq]
    · simp [Bool.not_eq_true _ ▸ hq]
  have hkeep : ∀ l, (∀ r c, l ≠ Loc.cat r c) → Par.exec mem ws l = mem l := by
    intro l hl
    apply Par.exec_untouched s2
    intro j b hj y hy heq
    obtain ⟨-, c, hc⟩ := iter2_loc (mapM_range_getElem? h2 hj).2 y hy
    exact hl _ _ (heq.symm.trans hc)
  have hsel : ∀ {γ : Type} (F : Nat → γ) (G : (List Int × R × Int) → γ),
      (∀ (p : Nat) (g : Group R) (c : Nat) (cs : List Nat), gs[p]? = some g → g.subs = c :: cs → m ≤ (c : Int) → F p =
        G ((List.range c).map (fun k : Nat => (startOf gs p : Int) + (k : Int)), g.r200, c)) →
      passing.map F = (expectedObjects m gs).map G := by
    intro γ F G hFG
    rw [hpass']
    unfold expectedObjects
    apply filter_map_eq_filterMap
    intro p hp
    have hp : p < gs.length := by simpa using hp
    obtain ⟨⟨f, r, subs⟩, hg⟩ : ∃ g, gs[p]? = some g := ⟨_, List.getElem?_eq_getElem hp⟩
    unfold objectOf
    simp only [hg]
    cases subs with
    | nil => simp [qual]
    | cons c cs =>
      constructor
      · intro hq
        have hq : m ≤ (c : Int) := by simpa [qual] using hq
        exact ⟨_, if_pos hq, hFG p _ c cs hg rfl hq⟩
      · intro hq
        have hq : ¬ m ≤ (c : Int) := by simpa [qual] using hq
        simp [hq]
  have hsz : ∀ p ∈ passing, ∀ g, gs[p]? = some g → (Par.exec mem ws (.size p)).toInt = csize g := by
    intro p hp g hg
    obtain ⟨g', hg', hq⟩ := hpass p hp
    rw [hg] at hg'; obtain rfl := Option.some.inj hg'
    rw [hkeep _ (by simp), (phase1_mem h p g hg).2.1, if_pos hq]
  have memp : ∀ (p : Nat) (g : Group R) (c : Nat) (cs : List Nat), gs[p]? = some g → g.subs = c :: cs → m ≤ (c : Int) → p ∈ passing := by
    intro p g c cs hg hs hm
    rw [hpass']
    simp only [List.mem_filter, List.mem_range, hg]
    exact ⟨(List.getElem?_eq_some_iff.1 hg).1, by simp [qual, hs, hm]⟩
  unfold output
  refine Prod.ext ?_ (Prod.ext ?_ ?_)
  · simp only
    congr 1
    rw [range_map_eq passing _ (fun p => (List.range (Par.exec mem ws (.size p)).toInt.toNat).map fun col =>
      (Par.exec mem ws (.cat (rankIn passing p) col)).toInt)]
    · apply hsel
      intro p g c cs hg hs hm
      have hp := memp p g c cs hg hs hm
      have hq : qual m g = true := by simp [qual, hs, hm]
      have hcs : csize g = c := by simp [csize, hs]
      rw [hsz p hp g hg, hcs, Int.toNat_natCast]
      apply List.map_congr_left
      intro k hk
      have hk : k < c := by simpa using hk
      have hlt : p < (tableNbShs gs).length := by
        rw [hlen]; exact (List.getElem?_eq_some_iff.1 hg).1
      have hit : its[p]? = some ((List.range c).map fun (k : Nat) =>
          (Loc.cat (rankIn passing p) k, Cell.int ((startOf gs p : Int) + (k : Int)))) := by
        rw [mapM_getElem? h2, List.getElem?_range hlt]
        have := iter2_eq gs m (fun p => (mem (.pass p)).toInt) (rankIn passing) p g hg
          (phase1_mem h p g hg).1
        rw [if_pos hq, hcs] at this
        exact this
      rw [Par.exec_owned s2 mem _ p _ hit, exec_range_cat _ (fun k => (startOf gs p : Int) + (k : Int)) c k hk]
      · rfl
      · intro j b hj hne y hy heq
        refine iter2_disjoint h.passing_eq h2 j p b _ hj hit hne y hy
          (Loc.cat (rankIn passing p) k, Cell.int ((startOf gs p : Int) + (k : Int))) ?_ heq
        exact List.mem_map.2 ⟨k, by simpa using hk, rfl⟩
    · intro i p hip
      have hnd : passing.Nodup := by rw [hpass']; exact List.nodup_range.filter _
      have : rankIn passing p = i := by
        obtain ⟨hi, rfl⟩ := List.getElem?_eq_some_iff.1 hip
        exact hnd.idxOf_getElem i hi
      simp [hip, this]
  · simp only
    apply hsel
    intro p g c cs hg hs hm
    rw [hkeep _ (by simp), (phase1_mem h p g hg).2.2]
  · simp only
    apply hsel
    intro p g c cs hg hs hm
    rw [hsz p (memp p g c cs hg hs hm) g hg]
    simp [csize, hs]

theorem phase2_total (h : Phase1 zero (tableNbShs gs) (tableShLen gs) (tableR200 gs) m mem passing) :
    ∃ its, (List.range (tableNbShs gs).length).mapM (iter2 (R := R) (tableNbShs gs) (tableShLen gs)
      (tableFofSizes gs) m (fun p => (mem (.pass p)).toInt) (rankIn passing)) = some its := by
  apply mapM_exists
  intro p hp
  have hp : p < gs.length := by simpa [tableNbShs] using hp
  have hg := List.getElem?_eq_getElem hp
  exact ⟨_, iter2_eq gs m _ _ p _ hg (phase1_mem h p _ hg).1⟩

theorem phase1_total (gs : List (Group R)) (m : Int) :
    ∃ its, (List.range (tableNbShs gs).length).mapM
      (iter1 (tableNbShs gs) (tableShLen gs) (tableR200 gs) m) = some its := by
  apply mapM_exists
  intro p hp
  have hp : p < gs.length := by simpa [tableNbShs] using hp
  exact ⟨_, iter1_eq gs m p _ (List.getElem?_eq_getElem hp)⟩

end

end Verif.Catalogue
