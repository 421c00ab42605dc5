import Verif.Api.ContinuityDens
import Verif.Api.Mode
import Verif.Api.Scaled
import Verif.Api.VizProps

/-!
# Masses and centres under small changes of the data (C185)
-/

namespace Verif.Api

open Verif.Binning (nth nth_mem)
open Verif.Periodic
open Verif (Vec Particle weightedMean totalMass)
open Verif.Units Verif.Catalogue
open Filter Topology

/-! ## Specification -/

/-- No particle is exactly on one of the shrinking spheres of the search for the mode (C158), beginning with radius `rad`. -/
def OffSpheres (ps : List (Particle ℝ)) (rad : ℝ) : Prop :=
  ∀ (n : Nat) (stage : Nat → List (Particle ℝ)), stage 0 = ps →
    (∀ k < n, stage (k + 1) = (stage k).filter (fun p => decide (Periodic.dist p.pos (weightedMean (stage k)) < rad * 0.83 ^ k)) ∧
      5 ≤ (stage (k + 1)).length) →
    ∀ p ∈ stage n, Periodic.dist p.pos (weightedMean (stage n)) ≠ rad * 0.83 ^ n

/-- Two tables of centres and masses have the same length, and their entries differ by at most `ε`. -/
def CloseCentres (ε : ℝ) (res res' : List (Vec ℝ × ℝ)) : Prop :=
  res'.length = res.length ∧ ∀ (k : Nat) (x x' : Vec ℝ × ℝ), res[k]? = some x → res'[k]? = some x' →
    |x'.2 - x.2| ≤ ε ∧ ∀ a, |x'.1 a - x.1 a| ≤ ε

/-- The centre of an object which crosses no face: its centre of mass, or what the search for the mode finds (beginning with radius `rad`). -/
noncomputable def plainCentre (limit : Nat) (rad : ℝ) (center : Center) (ps : List (Particle ℝ)) : Option (Vec ℝ) :=
  match center with
  | .mode => calcMode limit ps rad
  | .com => some (weightedMean ps)

/-! ## The search -/

theorem OffSpheres.here {ps : List (Particle ℝ)} {rad : ℝ} (h : OffSpheres ps rad) : ∀ p ∈ ps, Periodic.dist p.pos (weightedMean ps) ≠ rad := by
  intro p hp
  have := h 0 (fun _ => ps) rfl (fun k hk => absurd hk (Nat.not_lt_zero k)) p hp
  simpa using this

theorem OffSpheres.next {ps : List (Particle ℝ)} {rad : ℝ} (h : OffSpheres ps rad)
    (h5 : 5 ≤ (ps.filter fun p => decide (Periodic.dist p.pos (weightedMean ps) < rad)).length) :
    OffSpheres (ps.filter fun p => decide (Periodic.dist p.pos (weightedMean ps) < rad)) (rad * 0.83) := by
  intro n stage h0 hst p hp
  have hpow : ∀ k : Nat, rad * 0.83 * 0.83 ^ k = rad * (0.83 : ℝ) ^ (k + 1) := fun k => by ring
  have := h (n + 1) (fun k => match k with | 0 => ps | k + 1 => stage k) rfl (fun k hk => ?_) p hp
  · rw [hpow]
    exact this
  · match k with
    | 0 =>
      simp only [pow_zero, mul_one]
      rw [h0]
      exact ⟨rfl, h5⟩
    | k + 1 =>
      have := hst k (by omega)
      rw [hpow] at this
      exact this

section

variable {ι : Type} {F : Filter ι}

/-- The search for the mode, for particles numbered by a list. -/
theorem search_near (fuel : Nat) : ∀ (l : List Nat) (f : ι → Nat → Particle ℝ) (g : Nat → Particle ℝ) (rads : ι → ℝ) (rad : ℝ),
    (∀ k ∈ l, ∀ a, Tendsto (fun i => (f i k).pos a) F (𝓝 ((g k).pos a))) → (∀ k ∈ l, Tendsto (fun i => (f i k).mass) F (𝓝 (g k).mass)) →
    (∀ k ∈ l, 0 < (g k).mass) → l ≠ [] → Tendsto rads F (𝓝 rad) → OffSpheres (l.map g) rad → ∀ v, calcMode fuel (l.map g) rad = some v →
    ∃ vs : ι → Vec ℝ, (∀ a, Tendsto (fun i => vs i a) F (𝓝 (v a))) ∧ ∀ᶠ i in F, calcMode fuel (l.map (f i)) (rads i) = some (vs i) := by
  induction fuel with
  | zero =>
    intro l f g rads rad _ _ _ _ _ _ v h
    simp [calcMode] at h
  | succ n ih =>
    intro l f g rads rad hpos hmass hm hne hrad hoff v h
    have htot : totalMass (l.map g) ≠ 0 := by
      refine (totalMass_pos _ (by simpa using hne) fun p hp => ?_).ne'
      obtain ⟨k, hk, rfl⟩ := List.mem_map.1 hp
      exact hm k hk
    have hmean : ∀ a, Tendsto (fun i => weightedMean (l.map (f i)) a) F (𝓝 (weightedMean (l.map g) a)) := by
      intro a
      refine Tendsto.div ?_ ?_ htot
      · simp only [List.map_map]
        exact tendsto_list_sum _ fun j hj => (hmass j hj).mul (hpos j hj a)
      · simp only [totalMass, List.map_map]
        exact tendsto_list_sum _ fun j hj => hmass j hj
    have hdist : ∀ k ∈ l, Tendsto (fun i => Periodic.dist (f i k).pos (weightedMean (l.map (f i)))) F
        (𝓝 (Periodic.dist (g k).pos (weightedMean (l.map g)))) := by
      intro k hk
      unfold Periodic.dist
      exact (Real.continuous_sqrt.tendsto _).comp (((((hpos k hk 0).sub (hmean 0)).pow 2).add (((hpos k hk 1).sub (hmean 1)).pow 2)).add
        (((hpos k hk 2).sub (hmean 2)).pow 2))
    have hsame : ∀ᶠ i in F, ∀ k ∈ l.toFinset, (Periodic.dist (f i k).pos (weightedMean (l.map (f i))) < rads i ↔
        Periodic.dist (g k).pos (weightedMean (l.map g)) < rad) := by
      refine (Filter.eventually_all_finset _).2 fun k hk => ?_
      rw [List.mem_toFinset] at hk
      rcases lt_or_gt_of_ne (hoff.here _ (List.mem_map_of_mem hk)) with h1 | h1
      · filter_upwards [(hdist k hk).eventually_lt hrad h1] with i hi
        exact ⟨fun _ => h1, fun _ => hi⟩
      · filter_upwards [hrad.eventually_lt (hdist k hk) h1] with i hi
        exact ⟨fun h => absurd h hi.not_gt, fun h => absurd h h1.not_gt⟩
    set l' := l.filter fun k => decide (Periodic.dist (g k).pos (weightedMean (l.map g)) < rad) with hl'
    have hfil : (l.map g).filter (fun p => decide (Periodic.dist p.pos (weightedMean (l.map g)) < rad)) = l'.map g := by
      rw [List.filter_map]
      rfl
    have hfil' : ∀ᶠ i in F, (l.map (f i)).filter (fun p => decide (Periodic.dist p.pos (weightedMean (l.map (f i))) < rads i)) = l'.map (f i) := by
      filter_upwards [hsame] with i hi
      rw [List.filter_map, hl']
      congr 1
      refine List.filter_congr fun k hk => ?_
      simp only [Function.comp_def, decide_eq_decide]
      exact hi k (List.mem_toFinset.2 hk)
    rw [calcMode_succ, hfil, List.length_map] at h
    by_cases h5 : l'.length < 5
    · rw [if_pos h5] at h
      obtain rfl := Option.some.inj h
      refine ⟨fun i => weightedMean (l.map (f i)), hmean, ?_⟩
      filter_upwards [hfil'] with i hi
      rw [calcMode_succ, hi, List.length_map, if_pos h5]
    · rw [if_neg h5] at h
      have hmem : ∀ k ∈ l', k ∈ l := fun k hk => List.mem_of_mem_filter hk
      have hnext := hoff.next (by rw [hfil, List.length_map]; omega)
      rw [hfil] at hnext
      obtain ⟨vs, h1, h2⟩ := ih l' f g (fun i => rads i * 0.83) (rad * 0.83) (fun k hk => hpos k (hmem k hk)) (fun k hk => hmass k (hmem k hk))
        (fun k hk => hm k (hmem k hk)) (by rintro hnil; rw [hnil] at h5; simp at h5) (hrad.mul_const _) hnext v h
      refine ⟨vs, h1, ?_⟩
      filter_upwards [hfil', h2] with i hi hi2
      rw [calcMode_succ, hi, List.length_map, if_neg h5]
      exact hi2

theorem list_nth (ps : List (Particle ℝ)) : (List.range ps.length).map (nth ps) = ps := by
  refine List.ext_getElem (by simp) fun k h1 h2 => ?_
  rw [List.getElem_map, List.getElem_range]
  unfold nth
  rw [List.getD_eq_getElem?_getD, List.getElem?_eq_getElem h2]
  rfl

/-- C185 (search). As particles and the first radius approach given ones, none of which is exactly on a sphere of the search, the mode found
approaches the one found for the given ones. -/
theorem C185_mode {objs : ι → List (Particle ℝ)} {ps : List (Particle ℝ)} (hnum : ∀ i, (objs i).length = ps.length)
    (hpos : ∀ k < ps.length, ∀ a, Tendsto (fun i => (nth (objs i) k).pos a) F (𝓝 ((nth ps k).pos a)))
    (hmass : ∀ k < ps.length, Tendsto (fun i => (nth (objs i) k).mass) F (𝓝 (nth ps k).mass))
    (hm : ∀ p ∈ ps, 0 < p.mass) (hne : ps ≠ []) {rads : ι → ℝ} {rad : ℝ} (hrad : Tendsto rads F (𝓝 rad)) (hoff : OffSpheres ps rad)
    {fuel : Nat} {v : Vec ℝ} (h : calcMode fuel ps rad = some v) :
    ∃ vs : ι → Vec ℝ, (∀ a, Tendsto (fun i => vs i a) F (𝓝 (v a))) ∧ ∀ᶠ i in F, calcMode fuel (objs i) (rads i) = some (vs i) := by
  obtain ⟨vs, h1, h2⟩ := search_near (F := F) fuel (List.range ps.length) (fun i => nth (objs i)) (nth ps) rads rad
    (fun k hk => hpos k (List.mem_range.1 hk)) (fun k hk => hmass k (List.mem_range.1 hk)) (fun k hk => hm _ (nth_mem (List.mem_range.1 hk)))
    (by simpa using hne) hrad (by rw [list_nth]; exact hoff) v (by rw [list_nth]; exact h)
  refine ⟨vs, h1, ?_⟩
  filter_upwards [h2] with i hi
  rw [← hnum i, list_nth] at hi
  exact hi

end

/-! ## From arrays to centres and masses -/

/-- The centre in internal units. -/
theorem centreOf_plain (choose : Nat → List Nat) (hch : ∀ n, 0 < n → ∃ j ∈ choose n, j < n) (limit : Nat) {box f g : ℝ} (hbox : 0 < box) (hf : 0 < f)
    (hg : 0 < g) (center : Center) (ps : List (Particle ℝ)) (hne : ps ≠ []) (hm : ∀ p ∈ ps, 0 < p.mass) (hnc : NotCrossing box ps) :
    centreOf choose limit (box * f) center (ps.map (scale f g)) = (plainCentre limit (1000 / f) center ps).map fun v a => v a * f := by
  have hu := unwrapped_of_notCrossing choose (box * f) (mul_pos hbox hf) (ps.map (scale f g)) (hch _ (by simpa [List.length_pos_iff] using hne))
    (notCrossing_scale box f g hf _ hnc)
  unfold unwrapped at hu
  unfold centreOf plainCentre
  simp only [hu]
  cases center with
  | mode =>
    rw [← calcMode_scale hf hg, div_mul_cancel₀ _ hf.ne']
  | com =>
    have htot : totalMass (ps.map (scale f g)) ≠ 0 := by
      refine (totalMass_pos _ (by simpa using hne) fun p hp => ?_).ne'
      obtain ⟨q, hq, rfl⟩ := List.mem_map.1 hp
      exact mul_pos (hm q hq) hg
    simp only [Option.map_some, Option.some.injEq]
    rw [calcCoM_eq _ _ htot, weightedMean_scale' hg]

theorem plainCentre_inside {limit : Nat} {rad L : ℝ} {center : Center} {ps : List (Particle ℝ)} (hne : ps ≠ []) (hm : ∀ p ∈ ps, 0 < p.mass)
    (hbox : ∀ p ∈ ps, ∀ a, 0 ≤ p.pos a ∧ p.pos a < L) {v : Vec ℝ} (h : plainCentre limit rad center ps = some v) (a : Fin 3) : 0 ≤ v a ∧ v a < L := by
  obtain ⟨sub, h1, h2, rfl⟩ : ∃ sub : List (Particle ℝ), sub.Sublist ps ∧ sub ≠ [] ∧ v = weightedMean sub := by
    cases center with
    | mode =>
      obtain ⟨sub, h1, h2, h3⟩ := calcMode_is_mean _ _ _ _ h
      exact ⟨sub, h1, fun e => hne (h2 e), h3⟩
    | com => exact ⟨ps, List.Sublist.refl _, hne, (Option.some.inj h).symm⟩
  exact weightedMean_inside L sub h2 (fun p hp => hm p (h1.subset hp)) a (fun p hp => hbox p (h1.subset hp) a)

/-- What getMassesCenters returns for selected objects which cross no face. -/
theorem centre_rows (c c' : Cfg ℝ) (hc : c.Pos) (hc' : c'.Pos) (hh : c'.h = c.h)
    (xyz : List (Vec ℝ)) (masses : List ℝ) (box : ℝ) (objs : List (List Nat × ℝ)) (minPtcs : Int)
    (hmin : 1 ≤ minPtcs) (center : Center) (hs : Sensible xyz masses box objs)
    (choose : Nat → List Nat) (hch : ∀ n, 0 < n → ∃ j ∈ choose n, j < n) (limit : Nat) (o : Obj)
    (ho : construct c ⟨xyz, masses, .nested (objs.map Prod.fst), .array (objs.map Prod.snd), box, minPtcs, center⟩ = .ok o)
    (sel : List Int) (hsel : GoodSelection sel (resolved minPtcs objs).length)
    (hnc : ∀ (z : Int) (obj : List Nat × ℝ), z ∈ sel → (resolved minPtcs objs)[z.toNat]? = some obj → NotCrossing box (particlesOf xyz masses obj.1))
    (out : Except Err (List (Vec ℝ × ℝ))) (hrun : GetMassesCenters c' choose limit o sel out) :
    (out = .error .recursion ∧ ∃ (z : Int) (obj : List Nat × ℝ), z ∈ sel ∧ (resolved minPtcs objs)[z.toNat]? = some obj ∧
      plainCentre limit (1000 * mpch c.h / c.inL) center (particlesOf xyz masses obj.1) = none) ∨
    ∃ res, out = .ok res ∧ res.length = sel.length ∧
      ∀ (k : Nat) (z : Int) (obj : List Nat × ℝ), sel[k]? = some z → (resolved minPtcs objs)[z.toNat]? = some obj →
        ∃ v, plainCentre limit (1000 * mpch c.h / c.inL) center (particlesOf xyz masses obj.1) = some v ∧
          res[k]? = some (fun a => v a * (c.inL / c'.outL), totalMass (particlesOf xyz masses obj.1) * (c.inM / c'.outM)) := by
  rw [construct_eq c xyz masses box objs minPtcs center hs.lengths hs.objects] at ho
  have ho := Except.ok.inj ho
  have hrad : 1000 * mpch c.h / c.inL = 1000 / (c.inL / mpch c.h) := by
    rw [div_div_eq_mul_div]
  rw [hrad]
  set f := c.inL / mpch c.h with hf
  set g := c.inM / msunh10 c.h with hg
  have hl := mpch_pos hc.h
  have hms := msunh10_pos hc.h
  have hfp : 0 < f := div_pos hc.inL hl
  have hgp : 0 < g := div_pos hc.inM hms
  obtain ⟨parts', hsp, hplen, hpk'⟩ := selected f g xyz masses box objs minPtcs hmin hs o
    (by rw [← ho]) (by rw [← ho]) (by rw [← ho]) (by rw [← ho]) sel hsel
  have hocen : o.center = center := by rw [← ho]
  have hobox : o.box = box * f := by rw [← ho]
  have hpm : ∀ obj : List Nat × ℝ, ∀ p ∈ particlesOf xyz masses obj.1, 0 < p.mass := fun obj p hp => hs.masses_pos _ (mem_particlesOf hp).2
  have hat : ∀ (k : Nat) (hk : k < sel.length), ∃ obj, (resolved minPtcs objs)[sel[k].toNat]? = some obj := by
    intro k hk
    have hzr := hsel.2.2 _ (List.getElem_mem hk)
    exact ⟨_, List.getElem?_eq_getElem (by omega)⟩
  cases hrun with
  | rejected e h => rw [hsp] at h; cases h
  | diverges parts h hcd =>
    left
    refine ⟨rfl, ?_⟩
    obtain ⟨ps, hps, hnone⟩ := mapM_none _ _ hcd
    rw [hsp] at h
    obtain rfl := Except.ok.inj h
    obtain ⟨k, hk, hkp⟩ := List.getElem_of_mem hps
    have hk' : k < sel.length := by rw [← hplen]; exact hk
    obtain ⟨obj, hob⟩ := hat k hk'
    obtain ⟨h1, h2⟩ := hpk' k _ obj (List.getElem?_eq_getElem hk') hob
    rw [List.getElem?_eq_getElem hk, hkp] at h1
    obtain rfl := Option.some.inj h1
    rw [hocen, hobox, centreOf_plain choose hch limit hs.box_pos hfp hgp center _ h2 (hpm obj) (hnc _ obj (List.getElem_mem hk') hob)] at hnone
    exact ⟨_, obj, List.getElem_mem hk', hob, by simpa using hnone⟩
  | finished parts h centers hcen ws ex l m hu =>
    right
    refine ⟨_, rfl, ?_, ?_⟩
    · have := (mapM_some_get _ _ _ hcen).1
      rw [hsp] at h
      have h := Except.ok.inj h
      simp [recentreObject, this, ← h, hplen]
    · intro k z obj hk hobj
      rw [hsp] at h
      have hparts := Except.ok.inj h
      rw [internalLM_eq, hh] at hu
      have hu := Except.ok.inj hu
      obtain ⟨rfl, rfl⟩ := Prod.mk.inj hu
      subst hparts
      obtain ⟨hpk, hpne⟩ := hpk' k z obj hk hobj
      obtain ⟨v, hv, hcv⟩ := (mapM_some_get _ _ _ hcen).2 k _ hpk
      rw [hocen, hobox, centreOf_plain choose hch limit hs.box_pos hfp hgp center _ hpne (hpm obj) (hnc z obj (List.mem_of_getElem? hk) hobj)] at hcv
      obtain ⟨w, hw, rfl⟩ := Option.map_eq_some_iff.1 hcv
      have hklt : k < parts'.length := (List.getElem?_eq_some_iff.1 hpk).1
      refine ⟨w, hw, ?_⟩
      rw [List.getElem?_zipWith, List.getElem?_range hklt]
      unfold recentreObject
      rw [List.getElem?_map, hv, hobox]
      simp only [Option.map_some]
      rw [mass_result parts' ws ex k _ hpk, totalMass_scale]
      have hin := plainCentre_inside hpne (hpm obj) (fun p hp => hs.inside _ (mem_particlesOf hp).1) hw
      have e1 : (fun a => recentreAxis (box * f) (w a * f) * (mpch c.h / c'.outL)) = fun a => w a * (c.inL / c'.outL) := by
        funext a
        rw [recentreAxis_inside _ _ (mul_nonneg (hin a).1 hfp.le) (mul_lt_mul_of_pos_right (hin a).2 hfp), hf]
        have := hl.ne'
        have := hc'.outL.ne'
        field_simp
      have e2 : totalMass (particlesOf xyz masses obj.1) * g * (msunh10 c.h / c'.outM) = totalMass (particlesOf xyz masses obj.1) * (c.inM / c'.outM) := by
        rw [hg]
        have := hms.ne'
        have := hc'.outM.ne'
        field_simp
      rw [e1, e2]

section

variable {ι : Type} {F : Filter ι} {xyzs : ι → List (Vec ℝ)} {ms : ι → List ℝ} {objss : ι → List (List Nat × ℝ)}

/-- C185. Take any sensible arrays of positions and masses, lists of objects and R200, units, and a selection of objects each of which extends over
less than half the box without crossing a face; for CENTER = 'mode' moreover no particle is exactly on a sphere of the search.  If a call of
getMassesCenters returns `res`, and arrays approach the given ones, then eventually every call with these arrays (whatever the schedule) returns
centres and masses which differ by at most `ε`. -/
theorem C185_centres (c c' : Cfg ℝ) (hc : c.Pos) (hc' : c'.Pos) (hh : c'.h = c.h)
    (xyz : List (Vec ℝ)) (masses : List ℝ) (box : ℝ) (objs : List (List Nat × ℝ)) (minPtcs : Int) (hmin : 1 ≤ minPtcs) (center : Center)
    (hs : Sensible xyz masses box objs) (hss : ∀ i, Sensible (xyzs i) (ms i) box (objss i))
    (happ : DataApproach F xyzs ms objss xyz masses objs)
    (choose : Nat → List Nat) (hch : ∀ n, 0 < n → ∃ j ∈ choose n, j < n) (limit : Nat)
    (sel : List Int) (hsel : GoodSelection sel (resolved minPtcs objs).length)
    (hobj : ∀ (z : Int) (obj : List Nat × ℝ), z ∈ sel → (resolved minPtcs objs)[z.toNat]? = some obj →
      (∀ p ∈ particlesOf xyz masses obj.1, ∀ q ∈ particlesOf xyz masses obj.1, ∀ a, |p.pos a - q.pos a| < box / 2) ∧
      (center = .mode → OffSpheres (particlesOf xyz masses obj.1) (1000 * mpch c.h / c.inL)))
    (o : Obj) (ho : construct c ⟨xyz, masses, .nested (objs.map Prod.fst), .array (objs.map Prod.snd), box, minPtcs, center⟩ = .ok o)
    (res : List (Vec ℝ × ℝ)) (hrun : GetMassesCenters c' choose limit o sel (.ok res)) (ε : ℝ) (hε : 0 < ε) :
    ∀ᶠ i in F, ∀ o', construct c ⟨xyzs i, ms i, .nested ((objss i).map Prod.fst), .array ((objss i).map Prod.snd), box, minPtcs, center⟩ = .ok o' →
      ∀ out, GetMassesCenters c' choose limit o' sel out → ∃ res', out = .ok res' ∧ CloseCentres ε res res' := by
  rcases centre_rows c c' hc hc' hh xyz masses box objs minPtcs hmin center hs choose hch limit o ho sel hsel
    (fun z obj hz hob p hp q hq a => ((hobj z obj hz hob).1 p hp q hq a).le) _ hrun with ⟨h, -⟩ | ⟨res₀, h, hlen, hrows⟩
  · cases h
  obtain rfl : res = res₀ := by cases h; rfl
  have hentry : ∀ k < sel.length, ∀ᶠ i in F, ∀ (z : Int) (obj' : List Nat × ℝ), sel[k]? = some z → (resolved minPtcs (objss i))[z.toNat]? = some obj' →
      NotCrossing box (particlesOf (xyzs i) (ms i) obj'.1) ∧
      ∃ v', plainCentre limit (1000 * mpch c.h / c.inL) center (particlesOf (xyzs i) (ms i) obj'.1) = some v' ∧
        ∀ x, res[k]? = some x → |totalMass (particlesOf (xyzs i) (ms i) obj'.1) * (c.inM / c'.outM) - x.2| ≤ ε ∧
          ∀ a, |v' a * (c.inL / c'.outL) - x.1 a| ≤ ε := by
    intro k hk
    have hz : sel[k]? = some sel[k] := List.getElem?_eq_getElem hk
    have hzr := hsel.2.2 _ (List.getElem_mem hk)
    have hob : (resolved minPtcs objs)[sel[k].toNat]? = some ((resolved minPtcs objs)[sel[k].toNat]'(by omega)) := List.getElem?_eq_getElem (by omega)
    generalize hobjdef : (resolved minPtcs objs)[sel[k].toNat]'(by omega) = obj at hob
    obtain ⟨o1, o2⟩ := hobj _ obj (List.getElem_mem hk) hob
    obtain ⟨R, hRi, hnear, hcross⟩ := object_near happ hs hss hmin hob o1
    obtain ⟨v, hv, hrow⟩ := hrows k _ obj hz hob
    have hpm : ∀ p ∈ particlesOf xyz masses obj.1, 0 < p.mass := fun p hp => hs.masses_pos _ (mem_particlesOf hp).2
    have hne : particlesOf xyz masses obj.1 ≠ [] := by
      have hsize := (List.mem_filter.1 (List.mem_of_getElem? hob)).2
      have hsize : minPtcs ≤ (obj.1.length : Int) := by simpa using hsize
      rw [particlesOf_eq hs.lengths (hs.exist obj (List.mem_of_mem_filter (List.mem_of_getElem? hob)))]
      intro hnil
      rw [List.map_eq_nil_iff] at hnil
      rw [hnil] at hsize
      simp at hsize
      omega
    obtain ⟨vs, hvs, hvse⟩ : ∃ vs : ι → Vec ℝ, (∀ a, Tendsto (fun i => vs i a) F (𝓝 (v a))) ∧
        ∀ᶠ i in F, plainCentre limit (1000 * mpch c.h / c.inL) center (particlesOf (xyzs i) (ms i) obj.1) = some (vs i) := by
      cases center with
      | mode => exact C185_mode hnear.number hnear.pos hnear.mass hpm hne tendsto_const_nhds (o2 rfl) hv
      | com =>
        obtain rfl := Option.some.inj hv
        exact ⟨_, hnear.center, Filter.Eventually.of_forall fun i => rfl⟩
    have htot : Tendsto (fun i => totalMass (particlesOf (xyzs i) (ms i) obj.1)) F (𝓝 (totalMass (particlesOf xyz masses obj.1))) := by
      have hsum : ∀ l : List (Particle ℝ), totalMass l = ∑ k ∈ Finset.range l.length, (nth l k).mass := by
        intro l
        have := Binning.sum_nth l (fun _ => true) fun p => p.mass
        simpa [totalMass] using this
      simp only [hsum, hnear.number]
      exact tendsto_finsetSum _ fun k hk => hnear.mass k (Finset.mem_range.1 hk)
    have small : ∀ {u : ι → ℝ} {x : ℝ}, Tendsto u F (𝓝 x) → ∀ᶠ i in F, |u i - x| ≤ ε := by
      intro u x hu
      have := (hu.sub_const x).abs
      rw [sub_self, abs_zero] at this
      filter_upwards [this.eventually_lt_const hε] with i hi
      exact hi.le
    have hall : ∀ᶠ i in F, ∀ a ∈ (Finset.univ : Finset (Fin 3)), |vs i a * (c.inL / c'.outL) - v a * (c.inL / c'.outL)| ≤ ε :=
      (Filter.eventually_all_finset _).2 fun a _ => small ((hvs a).mul_const _)
    filter_upwards [hcross, hvse, small (htot.mul_const (c.inM / c'.outM)), hall] with i h1 h2 h3 h4 z obj' hz' hobj'
    rw [hz] at hz'
    obtain rfl := Option.some.inj hz'
    rw [hRi i] at hobj'
    obtain rfl := Option.some.inj hobj'
    refine ⟨h1, vs i, h2, fun x hx => ?_⟩
    rw [hrow] at hx
    obtain rfl := Option.some.inj hx
    exact ⟨h3, fun a => h4 a (Finset.mem_univ a)⟩
  have hentries := (Filter.eventually_all_finset (Finset.range sel.length)).2 fun k hk => hentry k (Finset.mem_range.1 hk)
  filter_upwards [hentries] with i hi o' ho' out hout
  have hlr := resolved_length minPtcs (happ.members i)
  have hsel' : GoodSelection sel (resolved minPtcs (objss i)).length := by rw [hlr]; exact hsel
  have hk' : ∀ (z : Int) (obj : List Nat × ℝ), z ∈ sel → (resolved minPtcs (objss i))[z.toNat]? = some obj → ∃ k, k < sel.length ∧ sel[k]? = some z := by
    intro z obj hz hob
    obtain ⟨k, hk, rfl⟩ := List.getElem_of_mem hz
    exact ⟨k, hk, List.getElem?_eq_getElem hk⟩
  rcases centre_rows c c' hc hc' hh (xyzs i) (ms i) box (objss i) minPtcs hmin center (hss i) choose hch limit o' ho' sel hsel' (fun z obj hz hob => by
      obtain ⟨k, hk, hkz⟩ := hk' z obj hz hob
      exact (hi k (Finset.mem_range.2 hk) z obj hkz hob).1) out hout with ⟨-, z, obj, hz, hob, hnone⟩ | ⟨res', rfl, hlen', hrows'⟩
  · exfalso
    obtain ⟨k, hk, hkz⟩ := hk' z obj hz hob
    obtain ⟨-, v', hv', -⟩ := hi k (Finset.mem_range.2 hk) z obj hkz hob
    rw [hnone] at hv'
    cases hv'
  · refine ⟨res', rfl, by rw [hlen', hlen], fun k x x' hx hx' => ?_⟩
    have hk : k < sel.length := by rw [← hlen]; exact (List.getElem?_eq_some_iff.1 hx).1
    have hz : sel[k]? = some sel[k] := List.getElem?_eq_getElem hk
    have hzr := hsel.2.2 _ (List.getElem_mem hk)
    have hob' : (resolved minPtcs (objss i))[sel[k].toNat]? = some ((resolved minPtcs (objss i))[sel[k].toNat]'(by omega)) :=
      List.getElem?_eq_getElem (by omega)
    obtain ⟨-, v', hv', hclose⟩ := hi k (Finset.mem_range.2 hk) _ _ hz hob'
    obtain ⟨w, hw, hrow'⟩ := hrows' k _ _ hz hob'
    rw [hv'] at hw
    obtain rfl := Option.some.inj hw
    rw [hrow'] at hx'
    obtain rfl := Option.some.inj hx'
    exact hclose x hx

end

/-! ## Refutation -/

/-- Six particles of mass 1 in a line; the first at distance `1000 - t`. -/
noncomputable def brinkLine (t : ℝ) : List (Particle ℝ) :=
  [⟨![1000 - t, 0, 0], 1⟩, ⟨![-900, 0, 0], 1⟩, ⟨![-25, 0, 0], 1⟩, ⟨![-25, 0, 0], 1⟩, ⟨![-25, 0, 0], 1⟩, ⟨![-25, 0, 0], 1⟩]

theorem dist_line (x y : ℝ) : Periodic.dist ![x, 0, 0] ![y, 0, 0] = |x - y| := by
  unfold Periodic.dist
  have : (![x, 0, 0] 2 : ℝ) = 0 ∧ (![y, 0, 0] 2 : ℝ) = 0 := ⟨rfl, rfl⟩
  rw [this.1, this.2]
  simp [Real.sqrt_sq_eq_abs]

/-- C185. However small a change of the data: with a particle exactly on the first sphere the mode found by the search beginning at radius 1000
(as for getMassesCenters) is at -200, with this particle inside it, however close, it is near 0. -/
theorem C185_mode_refuted (fuel : Nat) (t : ℝ) (h0 : 0 < t) (h1 : t ≤ 1) :
    calcMode (fuel + 3) (brinkLine 0) 1000 = some ![-200, 0, 0] ∧ calcMode (fuel + 3) (brinkLine t) 1000 = some ![-t / 6, 0, 0] := by
  have hmean : ∀ t : ℝ, weightedMean (brinkLine t) = ![-t / 6, 0, 0] := by
    intro t
    funext a
    fin_cases a
    · simp [weightedMean, totalMass, brinkLine]; ring
    · simp [weightedMean, totalMass, brinkLine]
    · simp [weightedMean, totalMass, brinkLine]
  have hmean5 : weightedMean (brinkLine 0).tail = ![-200, 0, 0] := by
    funext a
    fin_cases a
    · simp [weightedMean, totalMass, brinkLine]; norm_num
    · simp [weightedMean, totalMass, brinkLine]
    · simp [weightedMean, totalMass, brinkLine]
  constructor
  · have e1 : (brinkLine 0).filter (fun p => decide (Periodic.dist p.pos (weightedMean (brinkLine 0)) < 1000)) = (brinkLine 0).tail := by
      rw [hmean]
      simp [brinkLine, dist_line]
      norm_num [abs_of_nonneg, abs_of_neg]
    have e2 : (brinkLine 0).tail.filter (fun p => decide (Periodic.dist p.pos (weightedMean (brinkLine 0).tail) < 1000 * 0.83)) = (brinkLine 0).tail := by
      rw [hmean5]
      simp [brinkLine, dist_line]
      norm_num [abs_of_nonneg, abs_of_neg]
    have e3 : ((brinkLine 0).tail.filter (fun p => decide (Periodic.dist p.pos (weightedMean (brinkLine 0).tail) < 1000 * 0.83 * 0.83))).length < 5 := by
      rw [hmean5]
      unfold brinkLine
      rw [List.tail_cons, List.filter_cons_of_neg]
      · exact (List.length_filter_le _ _).trans_lt (by simp)
      · rw [decide_eq_true_eq, dist_line, not_lt, le_abs]
        right; norm_num
    rw [calcMode_succ, e1, if_neg (by simp [brinkLine]), calcMode_succ, e2, if_neg (by simp [brinkLine]), calcMode_succ, if_pos e3,
      hmean5]
  · have a1 : ∀ x : ℝ, |x - -t / 6| = |x + t / 6| := fun x => by congr 1; ring
    have e1 : (brinkLine t).filter (fun p => decide (Periodic.dist p.pos (weightedMean (brinkLine t)) < 1000)) = brinkLine t := by
      rw [List.filter_eq_self, hmean]
      intro p hp
      rw [decide_eq_true_eq]
      simp only [brinkLine, List.mem_cons, List.not_mem_nil, or_false] at hp
      rcases hp with rfl | rfl | rfl | rfl | rfl | rfl <;> rw [dist_line, a1, abs_lt] <;> constructor <;> linarith
    have e2 : ((brinkLine t).filter (fun p => decide (Periodic.dist p.pos (weightedMean (brinkLine t)) < 1000 * 0.83))).length < 5 := by
      rw [hmean]
      unfold brinkLine
      rw [List.filter_cons_of_neg, List.filter_cons_of_neg]
      · exact (List.length_filter_le _ _).trans_lt (by simp)
      · rw [decide_eq_true_eq, dist_line, a1, not_lt, le_abs]
        right; linarith
      · rw [decide_eq_true_eq, dist_line, a1, not_lt, le_abs]
        left; linarith
    rw [calcMode_succ, e1, if_neg (by simp [brinkLine]), calcMode_succ, if_pos e2, hmean]

/-! ## Example -/

theorem cross_dists : (particlesOf crossXyz [1, 1, 1, 1, 1, 1] [0, 1, 2, 3, 4, 5]).map (fun p => Periodic.dist p.pos ![5, 5, 5]) = [3, 3, 2, 2, 1, 1] := by
  have key : ∀ (x y z d : ℝ), 0 ≤ d → (x - 5) ^ 2 + (y - 5) ^ 2 + (z - 5) ^ 2 = d ^ 2 → Periodic.dist ![x, y, z] ![5, 5, 5] = d := by
    intro x y z d hd h
    unfold Periodic.dist
    have : (![x, y, z] 2 : ℝ) = z ∧ (![5, 5, 5] 2 : ℝ) = 5 := ⟨rfl, rfl⟩
    rw [this.1, this.2]
    show √((x - 5) ^ 2 + (y - 5) ^ 2 + (z - 5) ^ 2) = d
    rw [h, Real.sqrt_sq hd]
  rw [cross_particles]
  simp only [List.map_cons, List.map_nil]
  rw [key 8 5 5 3 (by norm_num) (by norm_num), key 2 5 5 3 (by norm_num) (by norm_num), key 5 7 5 2 (by norm_num) (by norm_num),
    key 5 3 5 2 (by norm_num) (by norm_num), key 5 5 6 1 (by norm_num) (by norm_num), key 5 5 4 1 (by norm_num) (by norm_num)]

theorem cross_distances : ∀ p ∈ particlesOf crossXyz [1, 1, 1, 1, 1, 1] [0, 1, 2, 3, 4, 5],
    Periodic.dist p.pos ![5, 5, 5] = 3 ∨ Periodic.dist p.pos ![5, 5, 5] = 2 ∨ Periodic.dist p.pos ![5, 5, 5] = 1 := by
  intro p hp
  have := List.mem_map_of_mem (f := fun p : Particle ℝ => Periodic.dist p.pos ![5, 5, 5]) hp
  rw [cross_dists] at this
  simp only [List.mem_cons, List.not_mem_nil, or_false] at this
  tauto

/-- Sphere number `last` of the search which begins with radius `rad` is the first one with a radius below 3, which is above 2. -/
def FirstSphere (rad : ℝ) (last : Nat) : Prop :=
  (∀ k < last, 3 < rad * 0.83 ^ k) ∧ 2 < rad * (0.83 : ℝ) ^ last ∧ rad * (0.83 : ℝ) ^ last < 3

theorem firstSphere {rad : ℝ} {last : Nat} (h0 : 0 < rad) (h1 : 3 < rad * (0.83 : ℝ) ^ last) (h2 : 2 < rad * (0.83 : ℝ) ^ (last + 1))
    (h3 : rad * (0.83 : ℝ) ^ (last + 1) < 3) : FirstSphere rad (last + 1) := by
  refine ⟨fun k hk => h1.trans_le (mul_le_mul_of_nonneg_left ?_ h0.le), h2, h3⟩
  exact pow_le_pow_of_le_one (by norm_num) (by norm_num) (by omega)

theorem firstSphere_1000 : FirstSphere 1000 32 := firstSphere (last := 31) (by norm_num) (by norm_num) (by norm_num) (by norm_num)

/-- The spheres of the search contain all of the cross until the last one, which contains four particles. -/
theorem cross_spheres {rad : ℝ} {last : Nat} (hr : FirstSphere rad last) (k : Nat) :
    (k < last → (particlesOf crossXyz [1, 1, 1, 1, 1, 1] [0, 1, 2, 3, 4, 5]).filter (fun p => decide (Periodic.dist p.pos ![5, 5, 5] < rad * 0.83 ^ k)) =
      particlesOf crossXyz [1, 1, 1, 1, 1, 1] [0, 1, 2, 3, 4, 5]) ∧
    (k = last → ((particlesOf crossXyz [1, 1, 1, 1, 1, 1] [0, 1, 2, 3, 4, 5]).filter
      (fun p => decide (Periodic.dist p.pos ![5, 5, 5] < rad * 0.83 ^ k))).length < 5) := by
  constructor
  · intro h32
    rw [List.filter_eq_self]
    intro p hp
    rw [decide_eq_true_eq]
    have := hr.1 k h32
    rcases cross_distances p hp with h | h | h <;> rw [h] <;> linarith
  · intro hkl
    rw [← hkl] at hr
    have hc : ((particlesOf crossXyz [1, 1, 1, 1, 1, 1] [0, 1, 2, 3, 4, 5]).filter fun p => decide (Periodic.dist p.pos ![5, 5, 5] < rad * 0.83 ^ k)).length
        = (((particlesOf crossXyz [1, 1, 1, 1, 1, 1] [0, 1, 2, 3, 4, 5]).map (fun p => Periodic.dist p.pos ![5, 5, 5])).filter
          fun d => decide (d < rad * 0.83 ^ k)).length := by
      rw [List.filter_map, List.length_map]
      rfl
    rw [hc, cross_dists, List.filter_cons_of_neg (by simpa using hr.2.2.le), List.filter_cons_of_neg (by simpa using hr.2.2.le)]
    exact (List.length_filter_le _ _).trans_lt (by simp)

/-- The cross is on no sphere of the search. -/
theorem cross_off {rad : ℝ} {last : Nat} (hr : FirstSphere rad last) :
    OffSpheres (particlesOf crossXyz [1, 1, 1, 1, 1, 1] [0, 1, 2, 3, 4, 5]) rad := by
  intro n stage h0 hst
  have hstage : ∀ k ≤ n, k ≤ last ∧ stage k = particlesOf crossXyz [1, 1, 1, 1, 1, 1] [0, 1, 2, 3, 4, 5] := by
    intro k
    induction k with
    | zero => intro _; exact ⟨by omega, h0⟩
    | succ k ih =>
      intro hk
      obtain ⟨h1, h2⟩ := ih (by omega)
      obtain ⟨h3, h4⟩ := hst k (by omega)
      rw [h2, cross_mean] at h3
      rcases Nat.lt_or_ge k last with h32 | h32
      · exact ⟨by omega, by rw [h3, (cross_spheres hr k).1 h32]⟩
      · exfalso
        rw [h3] at h4
        exact absurd ((cross_spheres hr k).2 (by omega)) (by omega)
  intro p hp hcon
  obtain ⟨h1, h2⟩ := hstage n le_rfl
  rw [h2] at hp hcon
  rw [cross_mean] at hcon
  rcases Nat.lt_or_ge n last with h32 | h32
  · have := hr.1 n h32
    rcases cross_distances p hp with h | h | h <;> rw [h] at hcon <;> linarith
  · obtain rfl : n = last := by omega
    rcases cross_distances p hp with h | h | h <;> rw [h] at hcon <;> linarith [hr.2.1, hr.2.2]

/-- The cross meets the conditions of `C185_centres`, with either definition of the centre. -/
example (h : ℝ) (hh : 0 < h) (center : Center) (choose : Nat → List Nat) (hch : ∀ n, 0 < n → ∃ j ∈ choose n, j < n) (limit : Nat) (o : Obj)
    (ho : construct ⟨mpch h, Verif.Units.msunh10 h, 1, h, mpch h, Verif.Units.msunh10 h, 1⟩
      ⟨crossXyz, [1, 1, 1, 1, 1, 1], .nested [[0, 1, 2, 3, 4, 5]], .array [100], 20, 6, center⟩ = .ok o) (res : List (Vec ℝ × ℝ))
    (hrun : GetMassesCenters ⟨mpch h, Verif.Units.msunh10 h, 1, h, mpch h, Verif.Units.msunh10 h, 1⟩ choose limit o [0] (.ok res)) (ε : ℝ) (hε : 0 < ε) :
    ∀ᶠ i : ℕ in atTop, ∀ o', construct ⟨mpch h, Verif.Units.msunh10 h, 1, h, mpch h, Verif.Units.msunh10 h, 1⟩
        ⟨wobblyXyz (1 / ((i : ℝ) + 1)), [1 + 1 / ((i : ℝ) + 1), 1, 1, 1, 1, 1], .nested [[0, 1, 2, 3, 4, 5]], .array [100 + 1 / ((i : ℝ) + 1)], 20, 6,
          center⟩ = .ok o' →
      ∀ out, GetMassesCenters ⟨mpch h, Verif.Units.msunh10 h, 1, h, mpch h, Verif.Units.msunh10 h, 1⟩ choose limit o' [0] out →
        ∃ res', out = .ok res' ∧ CloseCentres ε res res' := by
  have hpos : ∀ i : ℕ, 0 ≤ 1 / ((i : ℝ) + 1) := fun i => by positivity
  have hle : ∀ i : ℕ, 1 / ((i : ℝ) + 1) ≤ 1 := fun i => by
    rw [div_le_one (by positivity)]
    linarith [(Nat.cast_nonneg i : (0 : ℝ) ≤ i)]
  have hl := mpch_pos hh
  have hms := msunh10_pos hh
  have hcfg : (⟨mpch h, Verif.Units.msunh10 h, 1, h, mpch h, Verif.Units.msunh10 h, 1⟩ : Cfg ℝ).Pos := ⟨hl, hms, one_pos, hh, hl, hms, one_pos⟩
  have hres : resolved 6 [([0, 1, 2, 3, 4, 5], (100 : ℝ))] = [([0, 1, 2, 3, 4, 5], 100)] := by simp [resolved]
  have hsel : GoodSelection [0] (resolved 6 [([0, 1, 2, 3, 4, 5], (100 : ℝ))]).length := by
    rw [hres]
    exact ⟨by simp, by simp, by simp⟩
  exact C185_centres _ _ hcfg hcfg rfl crossXyz _ 20 [([0, 1, 2, 3, 4, 5], 100)] 6 (by norm_num) center cross_sensible
    (fun i => wobbly_sensible _ (hpos i) (hle i) (100 + 1 / ((i : ℝ) + 1))) cross_approach choose hch limit [0] hsel (fun z obj hz hob => by
      simp only [List.mem_singleton] at hz
      subst hz
      rw [hres] at hob
      obtain rfl := Option.some.inj hob
      refine ⟨fun p hp q hq a => ?_, fun _ => ?_⟩
      · have h1 := cross_bounds p hp a
        have h2 := cross_bounds q hq a
        rw [abs_lt]
        constructor <;> linarith
      · rw [mul_div_assoc, div_self hl.ne', mul_one]
        exact cross_off firstSphere_1000) o ho res hrun ε hε

end Verif.Api
