import Verif.Api.Model
import Verif.Api.Spec

/-! # Lemmas on objects made from arrays -/

namespace Verif.Api

open Verif.Units Verif.Catalogue Verif.Periodic Verif.Binning Verif.Par

/-- A particle in other units. -/
def scale (f g : ℝ) (p : Particle ℝ) : Particle ℝ := ⟨fun a => p.pos a * f, p.mass * g⟩

theorem scale_scale (f g f' g' : ℝ) (p : Particle ℝ) :
    scale f' g' (scale f g p) = scale (f * f') (g * g') p := by
  unfold scale; congr 1
  · funext a; ring
  · ring

theorem scale_one (p : Particle ℝ) : scale 1 1 p = p := by
  cases p; simp [scale]

theorem totalMass_scale (f g : ℝ) (ps : List (Particle ℝ)) :
    totalMass (ps.map (scale f g)) = totalMass ps * g := by
  unfold totalMass
  induction ps with
  | nil => simp
  | cons p ps ih => simp only [List.map_cons, List.sum_cons, ih, scale, add_mul]

theorem weightedMean_scale (f g : ℝ) (hg : g ≠ 0) (ps : List (Particle ℝ)) (a : Fin 3) :
    weightedMean (ps.map (scale f g)) a = weightedMean ps a * f := by
  unfold weightedMean
  rw [totalMass_scale]
  have : ((ps.map (scale f g)).map fun p => p.mass * p.pos a).sum =
      (ps.map fun p => p.mass * p.pos a).sum * (g * f) := by
    induction ps with
    | nil => simp
    | cons p ps ih =>
      simp only [List.map_cons, List.sum_cons, ih, scale]; ring
  rw [this]
  by_cases h : totalMass ps = 0
  · simp [h]
  · field_simp

theorem totalMass_pos (ps : List (Particle ℝ)) (hne : ps ≠ []) (h : ∀ p ∈ ps, 0 < p.mass) :
    0 < totalMass ps := by
  cases ps with
  | nil => exact absurd rfl hne
  | cons p ps =>
    unfold totalMass
    simp only [List.map_cons, List.sum_cons]
    have h1 := h p (by simp)
    have h2 := sum_map_nonneg' ps (fun p => p.mass) fun q hq => (h q (by simp [hq])).le
    linarith

/-! ## Gathering particles -/

theorem gather_eq (o : Obj) (xyz : List (Vec ℝ)) (masses : List ℝ) (f g : ℝ)
    (hx : o.xyz = xyz.map fun p a => p a * f) (hm : o.masses = masses.map fun x => x * g)
    (hlen : xyz.length = masses.length) (idx : List Nat) (h : ∀ i ∈ idx, i < xyz.length) :
    gather o idx = some ((particlesOf xyz masses idx).map (scale f g)) := by
  unfold gather particlesOf
  rw [hx, hm]
  induction idx with
  | nil => rfl
  | cons i idx ih =>
    have hi := h i (by simp)
    have hi' : i < masses.length := by omega
    have ih := ih fun j hj => h j (by simp [hj])
    simp only [List.mapM_cons, List.filterMap_cons, List.getElem?_map,
      List.getElem?_eq_getElem hi, List.getElem?_eq_getElem hi', Option.map_some, Option.bind_some]
    simp only [List.getElem?_map] at ih
    rw [ih]
    rfl

theorem particlesOf_length (xyz : List (Vec ℝ)) (masses : List ℝ)
    (hlen : xyz.length = masses.length) (idx : List Nat) (h : ∀ i ∈ idx, i < xyz.length) :
    (particlesOf xyz masses idx).length = idx.length := by
  unfold particlesOf
  induction idx with
  | nil => rfl
  | cons i idx ih =>
    have hi := h i (by simp)
    have hi' : i < masses.length := by omega
    simp only [List.filterMap_cons, List.getElem?_eq_getElem hi, List.getElem?_eq_getElem hi',
      Option.map_some, Option.bind_some, List.length_cons]
    rw [ih fun j hj => h j (by simp [hj])]

theorem mem_particlesOf {xyz : List (Vec ℝ)} {masses : List ℝ} {idx : List Nat} {p : Particle ℝ}
    (h : p ∈ particlesOf xyz masses idx) : p.pos ∈ xyz ∧ p.mass ∈ masses := by
  unfold particlesOf at h
  obtain ⟨i, -, hi⟩ := List.mem_filterMap.1 h
  cases hx : xyz[i]? with
  | none => simp [hx] at hi
  | some x =>
    cases hm : masses[i]? with
    | none => simp [hx, hm] at hi
    | some m =>
      simp only [hx, hm, Option.bind_some, Option.map_some, Option.some.injEq] at hi
      subst hi
      exact ⟨List.mem_of_getElem? hx, List.mem_of_getElem? hm⟩

/-! ## Construction -/

/-- The object made from sensible data. -/
theorem construct_eq (c : Cfg ℝ) (xyz : List (Vec ℝ)) (masses : List ℝ) (box : ℝ)
    (objs : List (List Nat × ℝ)) (minPtcs : Int) (center : Center)
    (hlen : xyz.length = masses.length) (hne : objs ≠ []) :
    construct c ⟨xyz, masses, .nested (objs.map Prod.fst), .array (objs.map Prod.snd), box, minPtcs,
      center⟩ = .ok
      { xyz := xyz.map fun p a => p a * (c.inL / mpch c.h)
        masses := masses.map fun x => x * (c.inM / msunh10 c.h)
        idxCat := ((resolved minPtcs objs).map Prod.fst).flatten
        r200 := (resolved minPtcs objs).map fun o => o.2 * (c.inL / mpch c.h)
        sizes := (resolved minPtcs objs).map fun o => o.1.length
        box := box * (c.inL / mpch c.h), center := center } := by
  unfold construct
  rw [if_neg (by simpa using hlen), internalLM_eq]
  simp only
  rw [C18_resolution_cut _ _ _ hne]
  rfl

/-! ## Selection -/

theorem toNat_map_getElem {α : Type} (l : List α) (sel : List Int)
    (h : ∀ z ∈ sel, 0 ≤ z ∧ z < l.length) :
    ∃ chosen : List α, (sel.map Int.toNat).map (l[·]?) = chosen.map some ∧
      chosen.length = sel.length := by
  induction sel with
  | nil => exact ⟨[], rfl, rfl⟩
  | cons z sel ih =>
    obtain ⟨chosen, h1, h2⟩ := ih fun x hx => h x (by simp [hx])
    have hz := h z (by simp)
    have : z.toNat < l.length := by omega
    refine ⟨l[z.toNat] :: chosen, ?_, by simp [h2]⟩
    simp only [List.map_cons, h1, List.getElem?_eq_getElem this]

theorem fancy_eq_some {α : Type} (l : List α) (sel : List Nat) (chosen : List α)
    (h : sel.map (l[·]?) = chosen.map some) : fancy l sel = some chosen := by
  unfold fancy
  induction sel generalizing chosen with
  | nil =>
    cases chosen with
    | nil => rfl
    | cons a l => simp at h
  | cons i sel ih =>
    cases chosen with
    | nil => simp at h
    | cons a chosen =>
      simp only [List.map_cons, List.cons.injEq] at h
      rw [List.mapM_cons, h.1, ih chosen h.2]
      rfl

theorem accept_good (sel : List Int) (nb : Nat) (h : GoodSelection sel nb) :
    acceptSelection (.array (sel.map fun z : Int => (z : ℚ))) nb = .ok (sel.map fun z : Int => (z : ℚ)) := by
  refine (C16_selection _ nb).1 ⟨by simpa using h.1, ?_, ?_⟩
  · exact h.2.1.map fun a b hab => by exact_mod_cast hab
  · intro x hx
    obtain ⟨z, hz, rfl⟩ := List.mem_map.1 hx
    obtain ⟨h0, h1⟩ := h.2.2 z hz
    refine ⟨z.toNat, ?_, by omega⟩
    have : ((z.toNat : Int) : ℚ) = (z : ℚ) := by rw [Int.toNat_of_nonneg h0]
    exact this.symm.trans (Int.cast_natCast _)

theorem mapM_range_eq {α : Type} (n : Nat) (F : Nat → Option α) (l : List α) (hn : l.length = n)
    (h : ∀ k a, l[k]? = some a → F k = some a) : (List.range n).mapM F = some l := by
  subst hn
  have key : ∀ (m : List Nat) (l : List α), m.map F = l.map some → m.mapM F = some l := by
    intro m
    induction m with
    | nil => intro l h; cases l with
      | nil => rfl
      | cons a l => simp at h
    | cons i m ih =>
      intro l h
      cases l with
      | nil => simp at h
      | cons a l =>
        simp only [List.map_cons, List.cons.injEq] at h
        rw [List.mapM_cons, h.1, ih l h.2]; rfl
  apply key
  apply List.ext_getElem?
  intro k
  rw [List.getElem?_map, List.getElem?_map]
  cases hk : l[k]? with
  | none =>
    have : l.length ≤ k := by simpa using hk
    simp [this]
  | some a =>
    have : k < l.length := (List.getElem?_eq_some_iff.1 hk).1
    simp [List.getElem?_range this, h k a hk]

/-- The particles of the selected objects of an object made from sensible data. -/
theorem select_eq (o : Obj) (xyz : List (Vec ℝ)) (masses : List ℝ) (f g : ℝ)
    (lists : List (List Nat))
    (hx : o.xyz = xyz.map fun p a => p a * f) (hm : o.masses = masses.map fun x => x * g)
    (hcat : o.idxCat = lists.flatten) (hsizes : o.sizes = lists.map List.length)
    (hlen : xyz.length = masses.length) (hex : ∀ l ∈ lists, ∀ i ∈ l, i < xyz.length)
    (sel : List Int) (hsel : GoodSelection sel lists.length) :
    ∃ chosen : List (List Nat), (sel.map Int.toNat).map (lists[·]?) = chosen.map some ∧
      chosen.length = sel.length ∧
      selectParticles o sel =
        .ok (chosen.map fun idx => (particlesOf xyz masses idx).map (scale f g)) := by
  obtain ⟨chosen, hc, hcl⟩ := toNat_map_getElem lists sel fun z hz => hsel.2.2 z hz
  refine ⟨chosen, hc, hcl, ?_⟩
  have hmem : ∀ idx ∈ chosen, idx ∈ lists := by
    intro idx hidx
    have : some idx ∈ chosen.map some := List.mem_map_of_mem hidx
    rw [← hc] at this
    obtain ⟨i, -, hi⟩ := List.mem_map.1 this
    exact List.mem_of_getElem? hi
  unfold selectParticles
  rw [accept_good sel _ (by rw [hsizes, List.length_map]; exact hsel)]
  simp only
  rw [hcat, hsizes, (C17_subselection lists _ chosen hc).1,
    fancy_eq_some (lists.map List.length) _ (chosen.map List.length) ?_]
  · simp only
    rw [mapM_range_eq _ _ (chosen.map fun idx => (particlesOf xyz masses idx).map (scale f g))
      (by simp)]
    intro k a hk
    rw [List.getElem?_map] at hk
    obtain ⟨idx, hidx, rfl⟩ := Option.map_eq_some_iff.1 hk
    rw [(C17_subselection lists _ chosen hc).2 k idx hidx, Option.bind_some]
    exact gather_eq o xyz masses f g hx hm hlen idx (hex idx (hmem idx (List.mem_of_getElem? hidx)))
  · have := congrArg (List.map (Option.map List.length)) hc
    simp only [List.map_map] at this ⊢
    rw [show (fun x => x.map List.length) ∘ (fun x : Nat => lists[x]?) ∘ Int.toNat =
      (fun x : Nat => (lists.map List.length)[x]?) ∘ Int.toNat by
        funext z; simp [List.getElem?_map]] at this
    rw [this]
    rfl

/-! ## Centres -/

/-- The particles moved to the positions used for the centre. -/
noncomputable def unwrapped (choose : Nat → List Nat) (L : ℝ) (ps : List (Particle ℝ)) :
    List (Particle ℝ) :=
  List.zipWith (fun x p => (⟨x, p.mass⟩ : Particle ℝ))
    (respectPBCNoRef (choose ps.length) (ps.map fun p => p.pos) L) ps

theorem unwrapped_eq (choose : Nat → List Nat) (L : ℝ) (hL : 0 < L) (ps : List (Particle ℝ)) :
    unwrapped choose L ps = ps.map fun p =>
      ⟨fun a => unwrapAxis L (reference (choose ps.length) (ps.map fun p => p.pos) a) (p.pos a),
        p.mass⟩ := by
  unfold unwrapped respectPBCNoRef
  rw [if_pos hL.ne']
  simp only [List.map_map]
  generalize reference (choose ps.length) (ps.map fun p => p.pos) = ref
  induction ps with
  | nil => rfl
  | cons p ps ih => simp only [List.map_cons, List.zipWith_cons_cons, ih, Function.comp]

theorem unwrapped_image (choose : Nat → List Nat) (L : ℝ) (hL : 0 < L) (ps : List (Particle ℝ)) :
    List.Forall₂ (ParticleImage L) ps (unwrapped choose L ps) := by
  rw [unwrapped_eq choose L hL]
  generalize reference (choose ps.length) (ps.map fun p => p.pos) = ref
  induction ps with
  | nil => exact .nil
  | cons p ps ih =>
    refine .cons ⟨rfl, fun a => ?_⟩ ih
    rcases unwrapAxis_cases L (ref a) (p.pos a) hL with ⟨-, e⟩ | ⟨-, e⟩ | ⟨-, -, e⟩
    · exact ⟨-1, by simp only [e]; push_cast; ring⟩
    · exact ⟨1, by simp only [e]; push_cast; ring⟩
    · exact ⟨0, by simp only [e]; push_cast; ring⟩

theorem centre_spec (choose : Nat → List Nat) (limit : Nat) (L : ℝ) (hL : 0 < L) (center : Center)
    (ps : List (Particle ℝ)) (hne : ps ≠ []) (hbox : ∀ p ∈ ps, ∀ a, 0 ≤ p.pos a ∧ p.pos a < L)
    (hm : ∀ p ∈ ps, 0 < p.mass)
    (hch : ∃ j ∈ choose ps.length, j < ps.length) (v : Vec ℝ)
    (h : centreOf choose limit L center ps = some v) :
    (∃ sub : List (Particle ℝ), sub.Sublist (unwrapped choose L ps) ∧ sub ≠ [] ∧
      (center = .com → sub = unwrapped choose L ps) ∧ v = weightedMean sub) ∧
    ∀ a, -L ≤ v a ∧ v a < 2 * L := by
  have hu := unwrapped_eq choose L hL ps
  have hune : unwrapped choose L ps ≠ [] := by rw [hu]; simpa using hne
  have hum : ∀ p ∈ unwrapped choose L ps, 0 < p.mass := by
    intro p hp
    rw [hu] at hp
    obtain ⟨q, hq, rfl⟩ := List.mem_map.1 hp
    exact hm q hq
  have hbox' : ∀ x ∈ ps.map (fun p => p.pos), ∀ a, 0 ≤ x a ∧ x a < L := by
    intro x hx
    obtain ⟨p, hp, rfl⟩ := List.mem_map.1 hx
    exact hbox p hp
  have href := reference_mem (choose ps.length) (ps.map fun p => p.pos) L (by simpa using hch) hbox'
  have hub : ∀ p ∈ unwrapped choose L ps, ∀ a,
      reference (choose ps.length) (ps.map fun p => p.pos) a - L / 2 ≤ p.pos a ∧
      p.pos a ≤ reference (choose ps.length) (ps.map fun p => p.pos) a + L / 2 := by
    intro p hp a
    rw [hu] at hp
    obtain ⟨q, hq, rfl⟩ := List.mem_map.1 hp
    have h1 := hbox q hq a
    have h2 := href a
    have := unwrapAxis_within L (reference (choose ps.length) (ps.map fun p => p.pos) a) (q.pos a) hL
      (by rw [abs_le]; constructor <;> linarith)
    rw [abs_le] at this
    constructor <;> linarith [this.1, this.2]
  have key : ∃ sub : List (Particle ℝ), sub.Sublist (unwrapped choose L ps) ∧ sub ≠ [] ∧
      (center = .com → sub = unwrapped choose L ps) ∧ v = weightedMean sub := by
    unfold centreOf at h
    cases center with
    | mode =>
      obtain ⟨sub, h1, h2, h3⟩ := calcMode_is_mean _ _ _ _ h
      exact ⟨sub, h1, fun e => hune (h2 e), by simp, h3⟩
    | com =>
      refine ⟨_, List.Sublist.refl _, hune, fun _ => rfl, ?_⟩
      have := Option.some.inj h
      rw [← this]
      exact calcCoM_eq _ _ (totalMass_pos _ hune hum).ne'
  refine ⟨key, fun a => ?_⟩
  obtain ⟨sub, h1, h2, -, rfl⟩ := key
  have := weightedMean_bounds sub (fun p hp => (hum p (h1.subset hp)).le)
    (totalMass_pos sub h2 fun p hp => hum p (h1.subset hp)) a _ _
    fun p hp => hub p (h1.subset hp) a
  have h3 := href a
  constructor <;> linarith [this.1, this.2]

/-! ## Masses -/

theorem massBody_run (ps : List (Particle ℝ)) (s : Unit) (x : ℝ) :
    runBody (massBody ps) (s, x) = ((), x + totalMass ps) := by
  unfold massBody runBody totalMass
  induction ps generalizing x with
  | nil => simp
  | cons p ps ih =>
    simp only [List.map_cons, List.foldl_cons, List.sum_cons]
    rw [ih]
    simp [add_assoc]

theorem mass_result (parts : List (List (Particle ℝ))) (ws : List (Step Nat Nat Unit ℝ))
    (ex : Execution (fun p => massBody (parts[p]?.getD [])) (List.range parts.length) ws)
    (p : Nat) (ps : List (Particle ℝ)) (hp : parts[p]? = some ps) :
    (runSteps ws ⟨fun _ => (), fun _ => 0⟩).out p = totalMass ps := by
  have hlt : p < parts.length := (List.getElem?_eq_some_iff.1 hp).1
  have := (execution_result _ _ ws ex ⟨fun _ => (), fun _ => 0⟩ (fun _ => True) (fun _ => trivial)
    (fun p => totalMass (parts[p]?.getD [])) ?_).1 p (by simpa using hlt)
  · rw [this, hp]; rfl
  · intro q _ s _
    refine ⟨trivial, ?_⟩
    rw [massBody_run]
    simp

end Verif.Api
