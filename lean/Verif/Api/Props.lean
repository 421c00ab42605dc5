import Verif.Api.Lemmas

/-!
# Objects made from arrays: from the arrays to the results (C95, C96, C97)
-/

namespace Verif.Api

open Verif.Units Verif.Catalogue Verif.Periodic Verif.Binning Verif.Par

theorem mapM_some_get {α β : Type} (F : α → Option β) (l : List α) (m : List β)
    (h : l.mapM F = some m) :
    m.length = l.length ∧ ∀ (k : Nat) (a : α), l[k]? = some a → ∃ b, m[k]? = some b ∧ F a = some b := by
  induction l generalizing m with
  | nil =>
    simp only [List.mapM_nil, Option.pure_def, Option.some.injEq] at h
    subst h; simp
  | cons x l ih =>
    rw [List.mapM_cons] at h
    cases hx : F x with
    | none => simp [hx] at h
    | some y =>
      cases hl : l.mapM F with
      | none => simp [hx, hl] at h
      | some m' =>
        simp only [hx, hl, Option.bind_eq_bind, Option.bind_some, Option.pure_def,
          Option.some.injEq] at h
        subst h
        obtain ⟨h1, h2⟩ := ih m' hl
        refine ⟨by simp [h1], ?_⟩
        intro k a hk
        cases k with
        | zero =>
          simp only [List.getElem?_cons_zero, Option.some.injEq] at hk
          subst hk; exact ⟨y, rfl, hx⟩
        | succ k => simpa using h2 k a (by simpa using hk)

theorem mapM_none {α β : Type} (F : α → Option β) (l : List α) (h : l.mapM F = none) :
    ∃ a ∈ l, F a = none := by
  induction l with
  | nil => simp at h
  | cons x l ih =>
    rw [List.mapM_cons] at h
    cases hx : F x with
    | none => exact ⟨x, by simp, hx⟩
    | some y =>
      cases hl : l.mapM F with
      | none =>
        obtain ⟨a, ha, hb⟩ := ih hl
        exact ⟨a, by simp [ha], hb⟩
      | some m' => simp [hx, hl] at h

/-- Images in internal units are images in input units. -/
theorem images_unscale (f g L : ℝ) (hf : f ≠ 0) (hg : g ≠ 0) (ps imgs : List (Particle ℝ))
    (h : List.Forall₂ (ParticleImage (L * f)) (ps.map (scale f g)) imgs) :
    List.Forall₂ (ParticleImage L) ps (imgs.map (scale f⁻¹ g⁻¹)) := by
  induction ps generalizing imgs with
  | nil => cases h; exact .nil
  | cons p ps ih =>
    cases h with
    | cons h1 h2 =>
      refine .cons ⟨?_, fun a => ?_⟩ (ih _ h2)
      · simp only [scale, h1.1]; field_simp
      · obtain ⟨k, hk⟩ := h1.2 a
        refine ⟨k, ?_⟩
        simp only [scale] at hk ⊢
        rw [hk]; field_simp

/-- The particles of the selected objects, in internal units. -/
theorem selected_of (f g : ℝ) (xyz : List (Vec ℝ)) (masses : List ℝ)
    (objs : List (List Nat × ℝ)) (minPtcs : Int) (hmin : 1 ≤ minPtcs)
    (hlen : xyz.length = masses.length) (hexist : ∀ o ∈ objs, ∀ i ∈ o.1, i < xyz.length) (o : Obj)
    (hx : o.xyz = xyz.map fun p a => p a * f) (hm : o.masses = masses.map fun x => x * g)
    (hcat : o.idxCat = ((resolved minPtcs objs).map Prod.fst).flatten)
    (hsizes : o.sizes = (resolved minPtcs objs).map fun o => o.1.length)
    (sel : List Int) (hsel : GoodSelection sel (resolved minPtcs objs).length) :
    ∃ parts, selectParticles o sel = .ok parts ∧ parts.length = sel.length ∧
      ∀ (k : Nat) (z : Int) (obj : List Nat × ℝ), sel[k]? = some z →
        (resolved minPtcs objs)[z.toNat]? = some obj →
        parts[k]? = some ((particlesOf xyz masses obj.1).map (scale f g)) ∧
        particlesOf xyz masses obj.1 ≠ [] := by
  have hex : ∀ l ∈ (resolved minPtcs objs).map Prod.fst, ∀ i ∈ l, i < xyz.length := by
    intro l hl
    obtain ⟨ob, hob, rfl⟩ := List.mem_map.1 hl
    exact hexist ob (List.mem_of_mem_filter hob)
  have hne : ∀ l ∈ (resolved minPtcs objs).map Prod.fst, l ≠ [] := by
    intro l hl
    obtain ⟨ob, hob, rfl⟩ := List.mem_map.1 hl
    have := (List.mem_filter.1 hob).2
    rintro h0
    rw [h0] at this
    simp at this
    omega
  obtain ⟨chosen, hch1, hch2, hsp⟩ := select_eq o xyz masses f g ((resolved minPtcs objs).map Prod.fst)
    hx hm hcat (by rw [hsizes, List.map_map]; rfl) hlen hex sel
    (by rw [List.length_map]; exact hsel)
  refine ⟨_, hsp, by simp [hch2], ?_⟩
  intro k z obj hk hobj
  have hck : chosen[k]? = some obj.1 := by
    have := congrArg (fun l => l[k]?) hch1
    simp only [List.getElem?_map, hk, Option.map_some, hobj] at this
    cases hx : chosen[k]? with
    | none => simp [hx] at this
    | some x => simp [hx] at this; rw [this]
  refine ⟨by rw [List.getElem?_map, hck]; rfl, ?_⟩
  have hin : obj.1 ∈ (resolved minPtcs objs).map Prod.fst :=
    List.mem_map_of_mem (List.mem_of_getElem? hobj)
  have hplen := particlesOf_length xyz masses hlen obj.1 (hex _ hin)
  intro h0
  rw [h0] at hplen
  exact hne _ hin (List.length_eq_zero_iff.1 hplen.symm)

theorem selected (f g : ℝ) (xyz : List (Vec ℝ)) (masses : List ℝ) (box : ℝ)
    (objs : List (List Nat × ℝ)) (minPtcs : Int) (hmin : 1 ≤ minPtcs)
    (hs : Sensible xyz masses box objs) (o : Obj)
    (hx : o.xyz = xyz.map fun p a => p a * f) (hm : o.masses = masses.map fun x => x * g)
    (hcat : o.idxCat = ((resolved minPtcs objs).map Prod.fst).flatten)
    (hsizes : o.sizes = (resolved minPtcs objs).map fun o => o.1.length)
    (sel : List Int) (hsel : GoodSelection sel (resolved minPtcs objs).length) :
    ∃ parts, selectParticles o sel = .ok parts ∧ parts.length = sel.length ∧
      ∀ (k : Nat) (z : Int) (obj : List Nat × ℝ), sel[k]? = some z →
        (resolved minPtcs objs)[z.toNat]? = some obj →
        parts[k]? = some ((particlesOf xyz masses obj.1).map (scale f g)) ∧
        particlesOf xyz masses obj.1 ≠ [] :=
  selected_of f g xyz masses objs minPtcs hmin hs.lengths hs.exist o hx hm hcat hsizes sel hsel

/-! ## C95 -/

/-- C95. Take sensible data (positions, masses and objects in input units `c.inL`, `c.inM`), make an
object of it, and ask for masses and centres of a good selection (`z` is the number of an object among
those with at least `minPtcs` particles).  Whatever the schedule of the parallel loop, the reply lists
the selected objects in the order of the selection; each mass is (in grams) the total mass of the
particles of that object, each centre lies in the box and is (in cm) the mean position of periodic
images of its particles - of all particles for `CENTER = 'com'`, of some for `'mode'`.  Only mode
finding may fail, by exceeding the recursion limit. -/
theorem C95_masses_centers (c c' : Cfg ℝ) (hc : c.Pos) (hc' : c'.Pos) (hh : c'.h = c.h)
    (xyz : List (Vec ℝ)) (masses : List ℝ) (box : ℝ) (objs : List (List Nat × ℝ)) (minPtcs : Int)
    (hmin : 1 ≤ minPtcs) (center : Center) (hs : Sensible xyz masses box objs)
    (choose : Nat → List Nat) (hch : ∀ n, 0 < n → ∃ j ∈ choose n, j < n) (limit : Nat) (o : Obj)
    (ho : construct c ⟨xyz, masses, .nested (objs.map Prod.fst), .array (objs.map Prod.snd), box,
      minPtcs, center⟩ = .ok o)
    (sel : List Int) (hsel : GoodSelection sel (resolved minPtcs objs).length)
    (out : Except Err (List (Vec ℝ × ℝ))) (hrun : GetMassesCenters c' choose limit o sel out) :
    (out = .error .recursion ∧ center = .mode) ∨
    ∃ res, out = .ok res ∧ res.length = sel.length ∧
      ∀ (k : Nat) (z : Int) (obj : List Nat × ℝ), sel[k]? = some z →
        (resolved minPtcs objs)[z.toNat]? = some obj →
        ∃ centre mass, res[k]? = some (centre, mass) ∧
          mass * c'.outM = totalMass (particlesOf xyz masses obj.1) * c.inM ∧
          (∀ a, 0 ≤ centre a ∧ centre a * c'.outL < box * c.inL) ∧
          MeanOfImages box (decide (center = .com)) (particlesOf xyz masses obj.1)
            fun a => centre a * c'.outL / c.inL := by
  rw [construct_eq c xyz masses box objs minPtcs center hs.lengths hs.objects] at ho
  have ho := Except.ok.inj ho
  set f := c.inL / mpch c.h with hf
  set g := c.inM / msunh10 c.h with hg
  have hl := mpch_pos hc.h
  have hms := msunh10_pos hc.h
  have hfp : 0 < f := div_pos hc.inL hl
  have hgp : 0 < g := div_pos hc.inM hms
  obtain ⟨parts', hsp, hplen, hpk'⟩ := selected f g xyz masses box objs minPtcs hmin hs o
    (by rw [← ho]) (by rw [← ho]) (by rw [← ho]) (by rw [← ho]) sel hsel
  cases hrun with
  | rejected e h => rw [hsp] at h; cases h
  | diverges parts h hcd =>
    left
    refine ⟨rfl, ?_⟩
    obtain ⟨ps, -, hps⟩ := mapM_none _ _ hcd
    have hcen : o.center = center := by rw [← ho]
    rw [hcen] at hps
    unfold centreOf at hps
    cases center with
    | mode => rfl
    | com => cases hps
  | finished parts h centers hcen ws ex l m hu =>
    right
    refine ⟨_, rfl, ?_, ?_⟩
    · have := (mapM_some_get _ _ _ hcen).1
      rw [hsp] at h
      have h := Except.ok.inj h
      simp [recentreObject, this, ← h, hplen]
    · intro k z obj hk hobj
      rw [hsp] at h
      have hparts := Except.ok.inj h
      rw [internalLM_eq, hh] at hu
      have hu := Except.ok.inj hu
      obtain ⟨rfl, rfl⟩ := Prod.mk.inj hu
      subst hparts
      obtain ⟨hpk, hpne⟩ := hpk' k z obj hk hobj
      obtain ⟨v, hv, hcv⟩ := (mapM_some_get _ _ _ hcen).2 k _ hpk
      have hocen : o.center = center := by rw [← ho]
      have hobox : o.box = box * f := by rw [← ho]
      rw [hocen, hobox] at hcv
      have hLpos : 0 < box * f := mul_pos hs.box_pos hfp
      have hspec := centre_spec choose limit (box * f) hLpos center _
        (by simpa using hpne) (by
          intro p hp a
          obtain ⟨q, hq, rfl⟩ := List.mem_map.1 hp
          have := hs.inside _ (mem_particlesOf hq).1 a
          exact ⟨mul_nonneg this.1 hfp.le, mul_lt_mul_of_pos_right this.2 hfp⟩)
        (by
          intro p hp
          obtain ⟨q, hq, rfl⟩ := List.mem_map.1 hp
          exact mul_pos (hs.masses_pos _ (mem_particlesOf hq).2) hgp)
        (by
          refine hch _ ?_
          simpa [List.length_pos_iff] using hpne) v hcv
      obtain ⟨⟨sub, hsub1, hsub2, hsub3, rfl⟩, hbounds⟩ := hspec
      have hrec : ∀ a, 0 ≤ recentreAxis (box * f) (weightedMean sub a) ∧
          recentreAxis (box * f) (weightedMean sub a) < box * f ∧
          IsImage (box * f) (weightedMean sub a) (recentreAxis (box * f) (weightedMean sub a)) :=
        fun a => (C23_recentre (box * f) (weightedMean sub a)).1 hLpos (hbounds a).1 (hbounds a).2
      have hklt : k < parts'.length := (List.getElem?_eq_some_iff.1 hpk).1
      refine ⟨fun a => recentreAxis (box * f) (weightedMean sub a) * (mpch c.h / c'.outL),
        totalMass ((particlesOf xyz masses obj.1).map (scale f g)) * (msunh10 c.h / c'.outM),
        ?_, ?_, ?_, ?_⟩
      · rw [List.getElem?_zipWith, List.getElem?_range hklt]
        unfold recentreObject
        rw [List.getElem?_map, hv, hobox]
        simp only [Option.map_some]
        rw [mass_result parts' ws ex k _ hpk]
      · rw [totalMass_scale, hg]
        have := hc'.outM.ne'
        field_simp
      · intro a
        obtain ⟨h1, h2, -⟩ := hrec a
        have h3 := hc'.outL
        refine ⟨by positivity, ?_⟩
        have : recentreAxis (box * f) (weightedMean sub a) * (mpch c.h / c'.outL) * c'.outL =
            recentreAxis (box * f) (weightedMean sub a) * mpch c.h := by field_simp
        rw [this]
        calc _ < box * f * mpch c.h := mul_lt_mul_of_pos_right h2 hl
          _ = box * c.inL := by rw [hf]; field_simp
      · refine ⟨(unwrapped choose (box * f) ((particlesOf xyz masses obj.1).map (scale f g))).map
          (scale f⁻¹ g⁻¹), images_unscale f g box hfp.ne' hgp.ne' _ _ (unwrapped_image _ _ hLpos _),
          sub.map (scale f⁻¹ g⁻¹), hsub1.map _, by simpa using hsub2, ?_, ?_⟩
        · intro hcom
          rw [hsub3 (by simpa using hcom)]
        · intro a
          obtain ⟨-, -, k, hk⟩ := hrec a
          refine ⟨k, ?_⟩
          rw [weightedMean_scale _ _ (inv_ne_zero hgp.ne')]
          simp only
          rw [hk]
          have h1 := hc'.outL.ne'
          have h2 := hc.inL.ne'
          have h3 := hl.ne'
          rw [hf]
          field_simp

/-- Every call of `getMassesCenters` has an outcome (so C95 is not about nothing). -/
theorem C95_outcome_exists (c : Cfg ℝ) (choose : Nat → List Nat) (limit : Nat) (o : Obj)
    (sel : List Int) : ∃ out, GetMassesCenters c choose limit o sel out := by
  cases h : selectParticles o sel with
  | error e => exact ⟨_, .rejected e h⟩
  | ok parts =>
    cases hcen : parts.mapM (centreOf choose limit o.box o.center) with
    | none => exact ⟨_, .diverges parts h hcen⟩
    | some centers =>
      exact ⟨_, .finished parts h centers hcen _
        (Execution.oneThread _ (List.range parts.length) List.nodup_range 0) _ _ (internalLM_eq c)⟩

/-- Two objects of three particles, of which the second is too small. -/
example : Sensible [![1, 1, 1], ![2, 1, 1], ![9, 9, (9 : ℝ)]] [1, 2, 3] 10 [([0, 1], 1), ([2], 1)] ∧
    GoodSelection [0] (resolved 2 [([0, 1], (1 : ℝ)), ([2], 1)]).length := by
  refine ⟨⟨rfl, by norm_num, ?_, ?_, by simp, ?_⟩, by simp, by simp, ?_⟩
  · intro x hx a
    simp only [List.mem_cons, List.not_mem_nil, or_false] at hx
    rcases hx with rfl | rfl | rfl <;> fin_cases a <;> norm_num
  · intro m hm
    simp only [List.mem_cons, List.not_mem_nil, or_false] at hm
    rcases hm with rfl | rfl | rfl <;> norm_num
  · intro o ho i hi
    simp only [List.mem_cons, List.not_mem_nil, or_false] at ho
    rcases ho with rfl | rfl <;> simp only [List.mem_cons, List.not_mem_nil, or_false] at hi <;>
      rcases hi with rfl | rfl <;> simp
  · intro z hz
    simp only [List.mem_singleton] at hz
    subst hz
    simp [resolved]

/-! ## C97 -/

/-- C97 (partial). What was handed in comes back: positions, masses, R200 and particle lists of an object
describe, in the output units at the time of the query, the same physical data as was handed in, in the
input units at the time of construction.  Nothing else in the unit settings matters: the input units may
be changed in between.  Missing: `little_h` must not be changed in between (see
`C97_little_h_changed_refuted`). -/
theorem C97_getters_partial (c c' : Cfg ℝ) (hc : c.Pos) (hc' : c'.Pos) (hh : c'.h = c.h)
    (xyz : List (Vec ℝ)) (masses : List ℝ) (box : ℝ) (objs : List (List Nat × ℝ)) (minPtcs : Int)
    (center : Center) (hlen : xyz.length = masses.length) (hne : objs ≠ []) (o : Obj)
    (ho : construct c ⟨xyz, masses, .nested (objs.map Prod.fst), .array (objs.map Prod.snd), box,
      minPtcs, center⟩ = .ok o) :
    (∃ xyz' masses', getXYZMasses c' o = .ok (xyz', masses') ∧
      List.Forall₂ (fun x x' => ∀ a : Fin 3, x' a * c'.outL = x a * c.inL) xyz xyz' ∧
      List.Forall₂ (fun m m' => m' * c'.outM = m * c.inM) masses masses') ∧
    (∃ r, getR200 c' o = .ok r ∧
      List.Forall₂ (fun (ob : List Nat × ℝ) r => r * c'.outL = ob.2 * c.inL) (resolved minPtcs objs) r) ∧
    (getIdxCat o).1 = ((resolved minPtcs objs).map Prod.fst).flatten ∧
    (getIdxCat o).2 = (resolved minPtcs objs).map fun ob => ob.1.length := by
  rw [construct_eq c xyz masses box objs minPtcs center hlen hne] at ho
  obtain rfl := Except.ok.inj ho
  have h1 := (mpch_pos hc.h).ne'
  have h2 := (msunh10_pos hc.h).ne'
  have h3 := hc'.outL.ne'
  have h4 := hc'.outM.ne'
  refine ⟨⟨_, _, by unfold getXYZMasses; rw [internalLM_eq], ?_, ?_⟩,
    ⟨_, by unfold getR200; rw [internalLM_eq], ?_⟩, rfl, rfl⟩
  · simp only [List.map_map, hh, List.forall₂_map_right_iff, List.forall₂_same]
    intro x _ a
    simp only [Function.comp]
    field_simp
  · simp only [List.map_map, hh, List.forall₂_map_right_iff, List.forall₂_same]
    intro x _
    simp only [Function.comp]
    field_simp
  · simp only [List.map_map, hh, List.forall₂_map_right_iff, List.forall₂_same]
    intro x _
    simp only [Function.comp]
    field_simp

/-- C97. The input units do not matter: the same physical data in two unit systems yields the same
object, hence the same results of every later call. -/
theorem C97_same_object (c₁ c₂ : Cfg ℝ) (hh : c₂.h = c₁.h)
    (x₁ x₂ : List (Vec ℝ)) (m₁ m₂ : List ℝ) (b₁ b₂ : ℝ) (o₁ o₂ : List (List Nat × ℝ))
    (minPtcs : Int) (center : Center) (hlen₁ : x₁.length = m₁.length) (hne₁ : o₁ ≠ [])
    (hx : List.Forall₂ (fun x y => ∀ a : Fin 3, x a * c₁.inL = y a * c₂.inL) x₁ x₂)
    (hm : List.Forall₂ (fun x y => x * c₁.inM = y * c₂.inM) m₁ m₂)
    (hb : b₁ * c₁.inL = b₂ * c₂.inL)
    (ho : List.Forall₂ (fun p q : List Nat × ℝ => p.1 = q.1 ∧ p.2 * c₁.inL = q.2 * c₂.inL) o₁ o₂) :
    construct c₁ ⟨x₁, m₁, .nested (o₁.map Prod.fst), .array (o₁.map Prod.snd), b₁, minPtcs, center⟩ =
    construct c₂ ⟨x₂, m₂, .nested (o₂.map Prod.fst), .array (o₂.map Prod.snd), b₂, minPtcs, center⟩ := by
  have hlen₂ : x₂.length = m₂.length := by rw [← hx.length_eq, ← hm.length_eq, hlen₁]
  have hne₂ : o₂ ≠ [] := by
    rintro rfl
    exact hne₁ (List.length_eq_zero_iff.1 (by simpa using ho.length_eq))
  have hres : List.Forall₂ (fun p q : List Nat × ℝ => p.1 = q.1 ∧ p.2 * c₁.inL = q.2 * c₂.inL)
      (resolved minPtcs o₁) (resolved minPtcs o₂) := by
    clear hne₁ hne₂
    unfold resolved
    induction ho with
    | nil => exact .nil
    | @cons p q ps qs hpq _ ih =>
      simp only [List.filter_cons, hpq.1]
      split
      · exact .cons hpq ih
      · exact ih
  rw [construct_eq _ _ _ _ _ _ _ hlen₁ hne₁, construct_eq _ _ _ _ _ _ _ hlen₂ hne₂, hh]
  have e1 : (x₁.map fun p a => p a * (c₁.inL / mpch c₁.h)) =
      x₂.map fun p a => p a * (c₂.inL / mpch c₁.h) := by
    clear hlen₁ hlen₂
    induction hx with
    | nil => rfl
    | cons h _ ih =>
      simp only [List.map_cons, ih, List.cons.injEq, and_true]
      funext a; rw [← mul_div_assoc, ← mul_div_assoc, h a]
  have e2 : (m₁.map fun x => x * (c₁.inM / msunh10 c₁.h)) =
      m₂.map fun x => x * (c₂.inM / msunh10 c₁.h) := by
    clear hlen₁ hlen₂
    induction hm with
    | nil => rfl
    | cons h _ ih =>
      simp only [List.map_cons, ih, List.cons.injEq, and_true]
      rw [← mul_div_assoc, ← mul_div_assoc, h]
  generalize resolved minPtcs o₁ = r₁ at *
  generalize resolved minPtcs o₂ = r₂ at *
  have e3 : r₁.map Prod.fst = r₂.map Prod.fst := by
    induction hres with
    | nil => rfl
    | cons h _ ih => simp only [List.map_cons, ih, h.1]
  have e4 : (r₁.map fun o => o.2 * (c₁.inL / mpch c₁.h)) =
      r₂.map fun o => o.2 * (c₂.inL / mpch c₁.h) := by
    clear e3
    induction hres with
    | nil => rfl
    | cons h _ ih =>
      simp only [List.map_cons, ih, List.cons.injEq, and_true]
      rw [← mul_div_assoc, ← mul_div_assoc, h.2]
  have e5 : (r₁.map fun o => o.1.length) =
      r₂.map fun o => o.1.length := by
    clear e3 e4
    induction hres with
    | nil => rfl
    | cons h _ ih => simp only [List.map_cons, ih, h.1]
  rw [e1, e2, e3, e4, e5, ← mul_div_assoc, ← mul_div_assoc, hb]

/-- C97 is false if `little_h` changes between construction and query: all lengths come back multiplied
by the ratio of the two values. -/
theorem C97_little_h_changed_refuted (c c' : Cfg ℝ) (hc : c.Pos) (hc' : c'.Pos) (hh : c'.h ≠ c.h)
    (center : Center) :
    ∃ o, construct c ⟨[![1, 1, 1]], [1], .nested [[0]], .array [1], 10, 1, center⟩ = .ok o ∧
    ∃ r, getR200 c' o = .ok [r] ∧ r * c'.outL = c.inL * (c.h / c'.h) ∧ r * c'.outL ≠ 1 * c.inL := by
  have hcon := construct_eq c [![1, 1, 1]] [1] 10 [([0], 1)] 1 center rfl (by simp)
  refine ⟨_, hcon, ?_⟩
  have hmp : mpch c'.h / mpch c.h = c.h / c'.h := by
    have h1 := hc.h.ne'
    have h2 := hc'.h.ne'
    unfold mpch
    field_simp
  have h3 := hc'.outL.ne'
  refine ⟨1 * (c.inL / mpch c.h) * (mpch c'.h / c'.outL), ?_, ?_⟩
  · unfold getR200
    rw [internalLM_eq]
    simp [resolved]
  · have : 1 * (c.inL / mpch c.h) * (mpch c'.h / c'.outL) * c'.outL = c.inL * (c.h / c'.h) := by
      rw [← hmp]; field_simp
    refine ⟨this, ?_⟩
    rw [this, one_mul]
    intro h
    have h1 := hc.inL.ne'
    have h2 := hc'.h.ne'
    have h4 : c.h / c'.h = 1 := mul_left_cancel₀ h1 (by rw [h, mul_one])
    exact hh ((div_eq_one_iff_eq h2).1 h4).symm

end Verif.Api
