import Verif.Api.Mode

/-!
# How deep mode finding recurses (C26)
-/

set_option linter.unusedSectionVars false

namespace Verif.Api

open Verif.Units Verif.Catalogue Verif.Periodic

/-! ## Specification -/

/-- Among any five particles there are two which are at least `delta` apart. -/
def Separated (delta : ℝ) (ps : List (Particle ℝ)) : Prop :=
  ∀ sub : List (Particle ℝ), sub.Sublist ps → 5 ≤ sub.length → ∃ p ∈ sub, ∃ q ∈ sub, delta ≤ Periodic.dist p.pos q.pos

/-! ## Proofs -/

/-- C26. Mode finding returns after at most `n` stages, if the radius of the last one is not more than half the distance by which two of any five particles are separated. -/
theorem C26_depth (n : Nat) (ps : List (Particle ℝ)) (rad delta : ℝ) (h : Separated delta ps) (hn : 2 * (rad * 0.83 ^ n) ≤ delta) :
    ∃ v, calcMode (n + 1) ps rad = some v := by
  induction n generalizing ps rad with
  | zero =>
    refine ⟨weightedMean ps, ?_⟩
    rw [calcMode_succ, if_pos]
    by_contra hlen
    obtain ⟨p, hp, q, hq, hd⟩ := h _ List.filter_sublist (not_lt.1 hlen)
    have h1 := (List.mem_filter.1 hp).2
    have h2 := (List.mem_filter.1 hq).2
    rw [decide_eq_true_eq] at h1 h2
    have := dist_triangle' p.pos (weightedMean ps) q.pos
    rw [dist_comm' (weightedMean ps)] at this
    simp only [pow_zero, mul_one] at hn
    linarith
  | succ n ih =>
    rw [calcMode_succ]
    split
    · exact ⟨_, rfl⟩
    · refine ih _ _ (fun sub hs => h sub (hs.trans List.filter_sublist)) ?_
      rw [mul_assoc rad, ← pow_succ']
      exact hn

/-- A higher recursion limit does not change the result. -/
theorem calcMode_more (k fuel : Nat) (ps : List (Particle ℝ)) (rad : ℝ) (v : Vec ℝ) (h : calcMode fuel ps rad = some v) :
    calcMode (fuel + k) ps rad = some v := by
  rw [C158_shrinking] at h ⊢
  obtain ⟨n, hn, hf⟩ := h
  exact ⟨n, by omega, hf⟩

theorem limit_enough : 2 * (1000 * (0.83 : ℝ) ^ 899) ≤ 1 / 10 ^ 60 := by
  have h : (0.83 : ℝ) ^ 899 ≤ (1 / 200) ^ 31 := by
    rw [show 899 = 29 * 31 from rfl, pow_mul]
    exact pow_le_pow_left₀ (by positivity) (by norm_num) 31
  have h2 : 2 * (1000 * ((1 : ℝ) / 200) ^ 31) ≤ 1 / 10 ^ 60 := by norm_num
  exact (mul_le_mul_of_nonneg_left (mul_le_mul_of_nonneg_left h (by norm_num)) (by norm_num)).trans h2

theorem Separated.scale {delta : ℝ} {ps : List (Particle ℝ)} (h : Separated delta ps) {f g : ℝ} (hf : 0 < f) : Separated (delta * f) (ps.map (scale f g)) := by
  intro sub hs hl
  obtain ⟨sub', hs', rfl⟩ := List.sublist_map_iff.1 hs
  obtain ⟨p, hp, q, hq, hd⟩ := h sub' hs' (by simpa using hl)
  refine ⟨_, List.mem_map_of_mem hp, _, List.mem_map_of_mem hq, ?_⟩
  have := dist_scale hf p.pos q.pos
  change _ ≤ Periodic.dist (fun a => p.pos a * f) (fun a => q.pos a * f)
  rw [this]
  exact mul_le_mul_of_nonneg_right hd hf.le

/-- C26. With a recursion limit of 900 or more, `getMassesCenters` with `CENTER = 'mode'` returns for all objects in which among any five particles two are at least
`delta` apart, `delta` being not less than 10^-60 Mpc/h.  (Without periodicity, or in a box with enough room for the selected objects.) -/
theorem C26_limit_partial (c : Cfg ℝ) (hc : c.Pos) (xyz : List (Vec ℝ)) (masses : List ℝ) (box : ℝ) (objs : List (List Nat × ℝ)) (minPtcs : Int)
    (hmin : 1 ≤ minPtcs) (hs : PointCloud xyz masses objs) (o : Obj)
    (ho : construct c ⟨xyz, masses, .nested (objs.map Prod.fst), .array (objs.map Prod.snd), box, minPtcs, .mode⟩ = .ok o)
    (sel : List Int) (hsel : GoodSelection sel (resolved minPtcs objs).length) (hroom : Room box xyz masses objs minPtcs sel)
    (choose : Nat → List Nat) (hch : ∀ n, 0 < n → ∃ j ∈ choose n, j < n) (limit : Nat) (hlimit : 900 ≤ limit) (c' : Cfg ℝ)
    (delta : ℝ) (hdelta : mpch c.h ≤ delta * c.inL * 10 ^ 60)
    (hsep : ∀ z ∈ sel, ∀ obj, (resolved minPtcs objs)[z.toNat]? = some obj → Separated delta (particlesOf xyz masses obj.1))
    (out : Except Err (List (Vec ℝ × ℝ))) (hrun : GetMassesCenters c' choose limit o sel out) :
    ∃ res, out = .ok res ∧ res.length = sel.length := by
  obtain ⟨hbox, hcen, parts, r200, h1, h2, h3, h4, h5⟩ := prepared_of c xyz masses box objs minPtcs hmin .mode hs.lengths hs.objects hs.exist
    o ho sel hsel
  have hfp : 0 < c.inL / mpch c.h := div_pos hc.inL (mpch_pos hc.h)
  have hd : 1 / 10 ^ 60 ≤ delta * (c.inL / mpch c.h) := by
    rw [← mul_div_assoc, div_le_div_iff₀ (by positivity) (mpch_pos hc.h)]
    linarith
  have hout := getMassesCenters_fn c' choose limit o sel parts h1 _ hrun
  have hall : ∀ ps ∈ parts, ∃ y, (centreOf choose limit o.box o.center ps).map (fun v => (v, totalMass ps)) = some y := by
    intro ps hps
    obtain ⟨k, hk⟩ := List.mem_iff_getElem?.1 hps
    have hks : k < sel.length := by rw [← h4]; exact (List.getElem?_eq_some_iff.1 hk).1
    have hz := hsel.2.2 sel[k] (List.getElem_mem hks)
    have hlt : (sel[k]).toNat < (resolved minPtcs objs).length := by omega
    have hget := List.getElem?_eq_getElem hlt
    have e1 := (List.getElem?_zip_eq_some.1 (h5 k _ _ (List.getElem?_eq_getElem hks) hget)).1
    rw [hk] at e1
    have e1 : ps = (particlesOf xyz masses ((resolved minPtcs objs)[(sel[k]).toNat]).1).map (scale (c.inL / mpch c.h) (c.inM / msunh10 c.h)) :=
      Option.some.inj e1
    have hR := room_for masses objs minPtcs sel box xyz hroom _ (List.getElem_mem hks) _ hget
    have hS := roomFor_scale box _ (c.inM / msunh10 c.h) hfp _ hR
    have hsep' := (hsep _ (List.getElem_mem hks) _ hget).scale (g := c.inM / msunh10 c.h) hfp
    have hmem : (resolved minPtcs objs)[(sel[k]).toNat] ∈ resolved minPtcs objs := List.getElem_mem hlt
    generalize (resolved minPtcs objs)[(sel[k]).toNat] = obj at *
    have hne : (particlesOf xyz masses obj.1).map (scale (c.inL / mpch c.h) (c.inM / msunh10 c.h)) ≠ [] := by
      have hl := particlesOf_length xyz masses hs.lengths obj.1 (hs.exist obj (List.mem_of_mem_filter hmem))
      have h6 := (List.mem_filter.1 hmem).2
      simp only [decide_eq_true_eq] at h6
      intro h0
      have := congrArg List.length h0
      simp only [List.length_map, List.length_nil] at this
      omega
    rw [← hbox] at hS
    rw [← e1] at hne hS hsep'
    have hu := unwrapped_room choose o.box ps (hch _ (List.length_pos_iff.2 hne)) hS
    unfold unwrapped at hu
    obtain ⟨v, hv⟩ := C26_depth 899 ps 1000 _ hsep' (limit_enough.trans hd)
    have hv' := calcMode_more (limit - 900) 900 ps 1000 v hv
    rw [Nat.add_sub_cancel' hlimit] at hv'
    refine ⟨(v, totalMass ps), ?_⟩
    rw [hcen]
    unfold centreOf
    dsimp only
    rw [hu, hv']
    rfl
  unfold massesOf at hout
  split at hout
  · next hnone =>
    exfalso
    have : ∀ (l : List (List (Particle ℝ))), (∀ ps ∈ l, ∃ y, (centreOf choose limit o.box o.center ps).map (fun v => (v, totalMass ps)) = some y) →
        ∃ ys, l.mapM (fun ps => (centreOf choose limit o.box o.center ps).map fun v => (v, totalMass ps)) = some ys := by
      intro l
      induction l with
      | nil => intro _; exact ⟨[], rfl⟩
      | cons ps l ih =>
        intro hl
        obtain ⟨y, hy⟩ := hl ps (by simp)
        obtain ⟨ys, hys⟩ := ih fun q hq => hl q (List.mem_cons_of_mem _ hq)
        exact ⟨y :: ys, by rw [List.mapM_cons, hy, hys]; rfl⟩
    obtain ⟨ys, hys⟩ := this parts hall
    rw [hys] at hnone
    cases hnone
  · next xs hxs =>
    refine ⟨_, hout, ?_⟩
    rw [List.length_map, (mapM_some_get _ _ _ hxs).1, h4]

/-- The object of the previous example: two of any five particles are at least 1/10 apart. -/
example : Separated (1 / 10) clumpExample := by
  intro sub hs hl
  have hnd : (clumpExample.map fun p => p.pos).Nodup := by
    have : ((clumpExample.map fun p => p.pos).map fun v : Vec ℝ => v 0 + 2 * v 1 + 4 * v 2).Nodup := by
      simp only [clumpExample, List.map_cons, List.map_nil]
      simp [Matrix.cons_val_two]
      norm_num
    exact List.Nodup.of_map _ this
  match sub, hs, hl with
  | p :: q :: r, hs, _ =>
    have hnd' := hnd.sublist (hs.map _)
    have hne : p.pos ≠ q.pos := by
      rw [List.map_cons, List.map_cons, List.nodup_cons] at hnd'
      intro e
      exact hnd'.1 (by rw [e]; simp)
    refine ⟨p, by simp, q, by simp, ?_⟩
    have hp : p ∈ clumpExample := hs.subset (by simp)
    have hq : q ∈ clumpExample := hs.subset (by simp)
    unfold Periodic.dist
    rw [Real.le_sqrt' (by norm_num)]
    simp only [clumpExample, List.mem_cons, List.not_mem_nil, or_false] at hp hq
    rcases hp with rfl | rfl | rfl | rfl | rfl | rfl | rfl | rfl <;> rcases hq with rfl | rfl | rfl | rfl | rfl | rfl | rfl | rfl <;>
      first
        | exact absurd rfl hne
        | (simp only [Matrix.cons_val_zero, Matrix.cons_val_one, Matrix.cons_val_two, Matrix.tail_cons, Matrix.head_cons]; norm_num)

end Verif.Api
