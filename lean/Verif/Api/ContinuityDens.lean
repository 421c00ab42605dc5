import Verif.Api.Continuity
import Verif.Api.KernelProps
import Verif.Binning.Continuity

/-!
# Density profiles, masses and centres under small changes of the data, from arrays to result (C184)
-/

namespace Verif.Api

open Verif.Binning (radius massBetween shellVolume nth nth_mem mass_near densKernel bins)
open Verif (Vec Particle weightedMean totalMass)
open Verif.Units (Cfg mpch)
open Filter Topology

/-! ## Specification -/

/-- Two tables of numbers have the same format, and their entries differ by at most `ε`. -/
def CloseTables (ε : ℝ) (res res' : List (List ℝ)) : Prop :=
  res'.length = res.length ∧ ∀ (k : Nat) (row row' : List ℝ), res[k]? = some row → res'[k]? = some row' →
    row'.length = row.length ∧ ∀ (b : Nat) (x x' : ℝ), row[b]? = some x → row'[b]? = some x' → |x' - x| ≤ ε

/-! ## Proof -/

section

variable {ι : Type} {F : Filter ι} {xyzs : ι → List (Vec ℝ)} {ms : ι → List ℝ} {objss : ι → List (List Nat × ℝ)} {xyz : List (Vec ℝ)} {masses : List ℝ}
  {objs : List (List Nat × ℝ)}

/-- An object, as part of data which approach the given data. -/
theorem object_near {box : ℝ} (happ : DataApproach F xyzs ms objss xyz masses objs) (hs : Sensible xyz masses box objs)
    (hss : ∀ i, Sensible (xyzs i) (ms i) box (objss i)) {minPtcs : Int} (hmin : 1 ≤ minPtcs) {j : Nat} {obj : List Nat × ℝ}
    (hob : (resolved minPtcs objs)[j]? = some obj)
    (hin : ∀ p ∈ particlesOf xyz masses obj.1, ∀ q ∈ particlesOf xyz masses obj.1, ∀ a, |p.pos a - q.pos a| < box / 2) :
    ∃ r : ι → ℝ, (∀ i, (resolved minPtcs (objss i))[j]? = some (obj.1, r i)) ∧
      Binning.Approach F (fun i => particlesOf (xyzs i) (ms i) obj.1) (fun i => weightedMean (particlesOf (xyzs i) (ms i) obj.1)) r
        (particlesOf xyz masses obj.1) (weightedMean (particlesOf xyz masses obj.1)) obj.2 ∧
      ∀ᶠ i in F, NotCrossing box (particlesOf (xyzs i) (ms i) obj.1) := by
  have hmemr : obj ∈ resolved minPtcs objs := List.mem_of_getElem? hob
  have hmem : obj ∈ objs := List.mem_of_mem_filter hmemr
  have hne : obj.1 ≠ [] := by
    have hsize : minPtcs ≤ (obj.1.length : Int) := by
      have := (List.mem_filter.1 hmemr).2
      simpa using this
    intro hnil
    rw [hnil] at hsize
    simp at hsize
    omega
  have hidx : ∀ j ∈ obj.1, j < xyz.length := hs.exist obj hmem
  have hp : particlesOf xyz masses obj.1 = obj.1.map fun j => ⟨xyz.getD j 0, masses.getD j 0⟩ := particlesOf_eq hs.lengths hidx
  have hps : ∀ i, particlesOf (xyzs i) (ms i) obj.1 = obj.1.map fun j => ⟨(xyzs i).getD j 0, (ms i).getD j 0⟩ := fun i =>
    particlesOf_eq (hss i).lengths fun j hj => by rw [happ.number]; exact hidx j hj
  obtain ⟨r, hr, hri⟩ := resolved_near minPtcs objs objss happ.members happ.r200 _ obj hob
  have htot : totalMass (particlesOf xyz masses obj.1) ≠ 0 := by
    refine (totalMass_pos _ ?_ fun p hpm => hs.masses_pos _ (mem_particlesOf hpm).2).ne'
    rw [hp]; simpa using hne
  have hmean : ∀ a, Tendsto (fun i => weightedMean (particlesOf (xyzs i) (ms i) obj.1) a) F (𝓝 (weightedMean (particlesOf xyz masses obj.1) a)) := by
    intro a
    refine Tendsto.div ?_ ?_ htot
    · simp only [hp, hps, List.map_map]
      exact tendsto_list_sum _ fun j _ => (happ.masses j).mul (happ.positions j a)
    · simp only [hp, hps, totalMass, List.map_map]
      exact tendsto_list_sum _ fun j _ => happ.masses j
  have hn : ∀ (i : ι) (k : Nat) (hk : k < obj.1.length), nth (particlesOf (xyzs i) (ms i) obj.1) k =
      ⟨(xyzs i).getD obj.1[k] 0, (ms i).getD obj.1[k] 0⟩ := by
    intro i k hk
    unfold nth
    rw [List.getD_eq_getElem?_getD, hps, List.getElem?_map, List.getElem?_eq_getElem hk]
    rfl
  have hn0 : ∀ (k : Nat) (hk : k < obj.1.length), nth (particlesOf xyz masses obj.1) k = ⟨xyz.getD obj.1[k] 0, masses.getD obj.1[k] 0⟩ := by
    intro k hk
    unfold nth
    rw [List.getD_eq_getElem?_getD, hp, List.getElem?_map, List.getElem?_eq_getElem hk]
    rfl
  have hlen : (particlesOf xyz masses obj.1).length = obj.1.length := by rw [hp, List.length_map]
  refine ⟨r, hri, ⟨fun i => by rw [hp, hps]; simp, fun k hk a => ?_, fun k hk => ?_, hmean, hr⟩, ?_⟩
  · rw [hlen] at hk
    simp only [hn _ k hk, hn0 k hk]
    exact happ.positions _ a
  · rw [hlen] at hk
    simp only [hn _ k hk, hn0 k hk]
    exact happ.masses _
  · have : ∀ᶠ i in F, ∀ j ∈ obj.1.toFinset, ∀ j' ∈ obj.1.toFinset, ∀ a ∈ (Finset.univ : Finset (Fin 3)),
        |(xyzs i).getD j 0 a - (xyzs i).getD j' 0 a| < box / 2 := by
      refine (Filter.eventually_all_finset _).2 fun j hj => (Filter.eventually_all_finset _).2 fun j' hj' => (Filter.eventually_all_finset _).2 fun a _ => ?_
      rw [List.mem_toFinset] at hj hj'
      refine ((happ.positions j a).sub (happ.positions j' a)).abs.eventually_lt_const ?_
      rw [hp] at hin
      exact hin _ (List.mem_map_of_mem hj) _ (List.mem_map_of_mem hj') a
    filter_upwards [this] with i hi p hpm q hqm a
    rw [hps] at hpm hqm
    obtain ⟨j, hj, rfl⟩ := List.mem_map.1 hpm
    obtain ⟨j', hj', rfl⟩ := List.mem_map.1 hqm
    exact (hi j (List.mem_toFinset.2 hj) j' (List.mem_toFinset.2 hj') a (Finset.mem_univ a)).le

theorem edges_increase (radii : List ℝ) (hradii : radii ≠ []) (hinc : radii.Pairwise (· < ·)) (hpos : ∀ r ∈ radii, 1e-8 < r) {b : Nat}
    (hb : b < radii.length) : lowerEdge radii b < upperEdge radii b ∧ 0 ≤ lowerEdge radii b := by
  obtain ⟨edges, he, -, hegood, -, -⟩ := Binning.C30_edges radii hinc hpos hradii
  have hbin := (bins_sphEdges radii edges he).2 b hb
  have hmem := List.mem_of_getElem? hbin
  unfold bins at hmem hbin
  refine ⟨?_, hegood.1 _ (List.of_mem_zip hmem).1⟩
  obtain ⟨h1, h2⟩ := List.getElem?_zip_eq_some.1 hbin
  rw [List.getElem?_tail] at h2
  have := (List.pairwise_iff_getElem.1 hegood.2) b (b + 1) (List.getElem?_eq_some_iff.1 h1).1 (List.getElem?_eq_some_iff.1 h2).1 (by omega)
  rwa [(List.getElem?_eq_some_iff.1 h1).2, (List.getElem?_eq_some_iff.1 h2).2] at this

theorem volume_pos {lo hi r l : ℝ} (h : lo < hi) (h0 : 0 ≤ lo) (hr : 0 < r) (hl : 0 < l) : 0 < shellVolume (lo * r * l) (hi * r * l) := by
  unfold shellVolume
  have h1 : lo * r * l < hi * r * l := mul_lt_mul_of_pos_right (mul_lt_mul_of_pos_right h hr) hl
  have h2 : (lo * r * l) ^ 3 < (hi * r * l) ^ 3 := pow_lt_pow_left₀ h1 (by positivity) (by norm_num)
  have := Real.pi_pos
  have h3 : 0 < (hi * r * l) ^ 3 - (lo * r * l) ^ 3 := sub_pos.2 h2
  positivity

/-- C184 (shells). Take any sensible arrays of positions and masses, lists of objects and R200, units, increasing radii, CENTER = 'com', and a
selection of objects each of which extends over less than half the box without crossing a face and has no particle exactly on an edge of the bins.
If arrays approach the given ones, then eventually every call with these arrays (whatever the schedule) returns a table of the same format with
entries which differ by at most `ε`. -/
theorem C184_density (c c' : Cfg ℝ) (hc : c.Pos) (hc' : c'.Pos) (hh : c'.h = c.h)
    (xyz : List (Vec ℝ)) (masses : List ℝ) (box : ℝ) (objs : List (List Nat × ℝ)) (minPtcs : Int) (hmin : 1 ≤ minPtcs)
    (hs : Sensible xyz masses box objs) (hr200 : ∀ o ∈ objs, 0 < o.2)
    (xyzs : ι → List (Vec ℝ)) (ms : ι → List ℝ) (objss : ι → List (List Nat × ℝ))
    (hss : ∀ i, Sensible (xyzs i) (ms i) box (objss i)) (hr200s : ∀ i, ∀ o ∈ objss i, 0 < o.2)
    (happ : DataApproach F xyzs ms objss xyz masses objs)
    (choose : Nat → List Nat) (hch : ∀ n, 0 < n → ∃ j ∈ choose n, j < n) (limit : Nat)
    (radii : List ℝ) (hradii : radii ≠ []) (hinc : radii.Pairwise (· < ·)) (hpos : ∀ r ∈ radii, 1e-8 < r)
    (sel : List Int) (hsel : GoodSelection sel (resolved minPtcs objs).length)
    (hobj : ∀ (z : Int) (obj : List Nat × ℝ), z ∈ sel → (resolved minPtcs objs)[z.toNat]? = some obj →
      (∀ p ∈ particlesOf xyz masses obj.1, ∀ q ∈ particlesOf xyz masses obj.1, ∀ a, |p.pos a - q.pos a| < box / 2) ∧
      ∀ p ∈ particlesOf xyz masses obj.1, ∀ b < radii.length,
        radius (weightedMean (particlesOf xyz masses obj.1)) p ≠ lowerEdge radii b * obj.2 ∧
        radius (weightedMean (particlesOf xyz masses obj.1)) p ≠ upperEdge radii b * obj.2)
    (o : Obj) (ho : construct c ⟨xyz, masses, .nested (objs.map Prod.fst), .array (objs.map Prod.snd), box, minPtcs, .com⟩ = .ok o)
    (res : List (List ℝ)) (hrun : EstDensProfs c' choose limit o radii sel (.ok res)) (ε : ℝ) (hε : 0 < ε) :
    ∀ᶠ i in F, ∀ o', construct c ⟨xyzs i, ms i, .nested ((objss i).map Prod.fst), .array ((objss i).map Prod.snd), box, minPtcs, .com⟩ = .ok o' →
      ∀ out, EstDensProfs c' choose limit o' radii sel out → ∃ res', out = .ok res' ∧ CloseTables ε res res' := by
  rcases C96_density_partial c c' hc hc' hh xyz masses box objs minPtcs hmin .com hs hr200 choose hch limit o ho radii hradii hinc hpos sel hsel
    _ hrun with ⟨h, -⟩ | ⟨res₀, h, hlen, hrows⟩
  · cases h
  obtain rfl : res = res₀ := by cases h; rfl
  set val : ℝ → Vec ℝ → List (Particle ℝ) → Nat → ℝ := fun r v ps b =>
    massBetween v ps (lowerEdge radii b * r) (upperEdge radii b * r) * c.inM /
      ((c'.outM / c'.outL ^ 3) * shellVolume (lowerEdge radii b * r * c.inL) (upperEdge radii b * r * c.inL)) with hval
  have hunit : 0 < c'.outM / c'.outL ^ 3 := div_pos hc'.outM (pow_pos hc'.outL 3)
  have hdens : ∀ (r : ℝ) (v : Vec ℝ) (ps : List (Particle ℝ)) (b : Nat) (x : ℝ), 0 < r → b < radii.length →
      x * (c'.outM / c'.outL ^ 3) * shellVolume (lowerEdge radii b * r * c.inL) (upperEdge radii b * r * c.inL) =
        massBetween v ps (lowerEdge radii b * r) (upperEdge radii b * r) * c.inM → x = val r v ps b := by
    intro r v ps b x hr hb hx
    obtain ⟨e1, e2⟩ := edges_increase radii hradii hinc hpos hb
    have := volume_pos e1 e2 hr hc.inL
    rw [hval]
    beta_reduce
    rw [eq_div_iff (by positivity), ← hx]
    ring
  have hentry : ∀ k < sel.length, ∀ᶠ i in F, ∀ (z : Int) (obj' : List Nat × ℝ), sel[k]? = some z → (resolved minPtcs (objss i))[z.toNat]? = some obj' →
      NotCrossing box (particlesOf (xyzs i) (ms i) obj'.1) ∧
      ∀ b < radii.length, ∀ row x, res[k]? = some row → row[b]? = some x →
        |val obj'.2 (weightedMean (particlesOf (xyzs i) (ms i) obj'.1)) (particlesOf (xyzs i) (ms i) obj'.1) b - x| ≤ ε := by
    intro k hk
    have hz : sel[k]? = some sel[k] := List.getElem?_eq_getElem hk
    have hzr := hsel.2.2 _ (List.getElem_mem hk)
    have hob : (resolved minPtcs objs)[sel[k].toNat]? = some ((resolved minPtcs objs)[sel[k].toNat]'(by omega)) := List.getElem?_eq_getElem (by omega)
    generalize hobjdef : (resolved minPtcs objs)[sel[k].toNat]'(by omega) = obj at hob
    have hmem : obj ∈ objs := List.mem_of_mem_filter (List.mem_of_getElem? hob)
    obtain ⟨o1, o2⟩ := hobj _ obj (List.getElem_mem hk) hob
    obtain ⟨r, hri, hnear, hcross⟩ := object_near happ hs hss hmin hob o1
    obtain ⟨row, hrow, hrl, sub, -, -, hsub, hans⟩ := hrows k _ obj hz hob fun p hp q hq a => (o1 p hp q hq a).le
    rw [hsub rfl] at hans
    have hR := hr200 obj hmem
    have hall : ∀ᶠ i in F, ∀ b ∈ Finset.range radii.length, ∀ x, row[b]? = some x →
        |val (r i) (weightedMean (particlesOf (xyzs i) (ms i) obj.1)) (particlesOf (xyzs i) (ms i) obj.1) b - x| ≤ ε := by
      refine (Filter.eventually_all_finset _).2 fun b hb => ?_
      rw [Finset.mem_range] at hb
      have hbrow : row[b]? = some (row[b]'(by omega)) := List.getElem?_eq_getElem (by omega)
      obtain ⟨e1, e2⟩ := edges_increase radii hradii hinc hpos hb
      have hv := volume_pos e1 e2 hR hc.inL
      have hlim : Tendsto (fun i => val (r i) (weightedMean (particlesOf (xyzs i) (ms i) obj.1)) (particlesOf (xyzs i) (ms i) obj.1) b) F
          (𝓝 (val obj.2 (weightedMean (particlesOf xyz masses obj.1)) (particlesOf xyz masses obj.1) b)) := by
        have l1 := hnear.r200.const_mul (lowerEdge radii b)
        have l2 := hnear.r200.const_mul (upperEdge radii b)
        refine Tendsto.div ((mass_near hnear l1 l2 fun p hp => o2 p hp b hb).mul_const _) (Tendsto.const_mul _ ?_) (by positivity)
        unfold shellVolume
        exact (((l2.mul_const _).pow 3).sub ((l1.mul_const _).pow 3)).const_mul _
      rw [← hdens obj.2 _ _ b _ hR hb (hans b _ hbrow)] at hlim
      have := hlim.sub_const (row[b]'(by omega))
      rw [sub_self] at this
      have := this.abs
      rw [abs_zero] at this
      filter_upwards [this.eventually_lt_const hε] with i hi x hx
      rw [hbrow] at hx
      obtain rfl := Option.some.inj hx
      exact hi.le
    filter_upwards [hcross, hall] with i h1 h2 z obj' hz' hobj'
    rw [hz] at hz'
    obtain rfl := Option.some.inj hz'
    rw [hri i] at hobj'
    obtain rfl := Option.some.inj hobj'
    refine ⟨h1, fun b hb row' x hrow' hx => ?_⟩
    rw [hrow] at hrow'
    obtain rfl := Option.some.inj hrow'
    exact h2 b (Finset.mem_range.2 hb) x hx
  have hentries : ∀ᶠ i in F, ∀ k ∈ Finset.range sel.length, ∀ (z : Int) (obj' : List Nat × ℝ), sel[k]? = some z →
      (resolved minPtcs (objss i))[z.toNat]? = some obj' →
      NotCrossing box (particlesOf (xyzs i) (ms i) obj'.1) ∧
      ∀ b < radii.length, ∀ row x, res[k]? = some row → row[b]? = some x →
        |val obj'.2 (weightedMean (particlesOf (xyzs i) (ms i) obj'.1)) (particlesOf (xyzs i) (ms i) obj'.1) b - x| ≤ ε :=
    (Filter.eventually_all_finset _).2 fun k hk => hentry k (Finset.mem_range.1 hk)
  filter_upwards [hentries] with i hi o' ho' out hout
  have hlr := resolved_length minPtcs (happ.members i)
  rcases C96_density_partial c c' hc hc' hh (xyzs i) (ms i) box (objss i) minPtcs hmin .com (hss i) (hr200s i) choose hch limit o' ho' radii hradii hinc hpos
    sel (by rw [hlr]; exact hsel) out hout with ⟨-, h⟩ | ⟨res', rfl, hlen', hrows'⟩
  · cases h
  · refine ⟨res', rfl, by rw [hlen', hlen], fun k row row' hrow hrow' => ?_⟩
    have hk : k < sel.length := by rw [← hlen]; exact (List.getElem?_eq_some_iff.1 hrow).1
    have hz : sel[k]? = some sel[k] := List.getElem?_eq_getElem hk
    have hzr := hsel.2.2 _ (List.getElem_mem hk)
    have hob : (resolved minPtcs objs)[sel[k].toNat]? = some ((resolved minPtcs objs)[sel[k].toNat]'(by omega)) := List.getElem?_eq_getElem (by omega)
    have hob' : (resolved minPtcs (objss i))[sel[k].toNat]? = some ((resolved minPtcs (objss i))[sel[k].toNat]'(by omega)) :=
      List.getElem?_eq_getElem (by omega)
    obtain ⟨row₀, g1, g2, -⟩ := hrows k _ _ hz hob fun p hp q hq a => ((hobj _ _ (List.getElem_mem hk) hob).1 p hp q hq a).le
    obtain rfl : row = row₀ := by rw [hrow] at g1; exact Option.some.inj g1
    obtain ⟨h1, h2⟩ := hi k (Finset.mem_range.2 hk) _ _ hz hob'
    obtain ⟨row₁, f1, f2, sub, -, -, hsub, hans⟩ := hrows' k _ _ hz hob' h1
    obtain rfl : row' = row₁ := by rw [hrow'] at f1; exact Option.some.inj f1
    rw [hsub rfl] at hans
    refine ⟨by rw [f2, g2], fun b x x' hx hx' => ?_⟩
    have hb : b < radii.length := by rw [← g2]; exact (List.getElem?_eq_some_iff.1 hx).1
    rw [hdens _ _ _ b x' (hr200s i _ (List.mem_of_mem_filter (List.mem_of_getElem? hob'))) hb (hans b x' hx')]
    exact h2 b hb row x hrow hx

theorem radius_pos {v : Vec ℝ} {p : Particle ℝ} (h : p.pos ≠ v) : 0 < radius v p := by
  refine Real.sqrt_pos.2 ?_
  by_contra hc
  have h0 := sq_nonneg (v 0 - p.pos 0)
  have h1 := sq_nonneg (v 1 - p.pos 1)
  have h2 := sq_nonneg (v 2 - p.pos 2)
  refine h (funext fun j => ?_)
  have z0 : v 0 - p.pos 0 = 0 := pow_eq_zero_iff two_ne_zero |>.1 (by linarith)
  have z1 : v 1 - p.pos 1 = 0 := pow_eq_zero_iff two_ne_zero |>.1 (by linarith)
  have z2 : v 2 - p.pos 2 = 0 := pow_eq_zero_iff two_ne_zero |>.1 (by linarith)
  fin_cases j
  · exact (sub_eq_zero.1 z0).symm
  · exact (sub_eq_zero.1 z1).symm
  · exact (sub_eq_zero.1 z2).symm

/-- C184 (kernels). The same for kernel-based profiles, whose bins have no edges: it is enough that the call with the given arrays returns a
result (so that no particle is exactly at the centre of its object). -/
theorem C184_kernel (c c' : Cfg ℝ) (hc : c.Pos) (hc' : c'.Pos) (hh : c'.h = c.h)
    (xyz : List (Vec ℝ)) (masses : List ℝ) (box : ℝ) (objs : List (List Nat × ℝ)) (minPtcs : Int) (hmin : 1 ≤ minPtcs)
    (hs : Sensible xyz masses box objs) (hr200 : ∀ o ∈ objs, 0 < o.2)
    (xyzs : ι → List (Vec ℝ)) (ms : ι → List ℝ) (objss : ι → List (List Nat × ℝ))
    (hss : ∀ i, Sensible (xyzs i) (ms i) box (objss i)) (hr200s : ∀ i, ∀ o ∈ objss i, 0 < o.2)
    (happ : DataApproach F xyzs ms objss xyz masses objs)
    (choose : Nat → List Nat) (hch : ∀ n, 0 < n → ∃ j ∈ choose n, j < n) (limit : Nat)
    (radii : List ℝ) (hradii : radii ≠ []) (hpos : ∀ r ∈ radii, 0 < r)
    (sel : List Int) (hsel : GoodSelection sel (resolved minPtcs objs).length)
    (hobj : ∀ (z : Int) (obj : List Nat × ℝ), z ∈ sel → (resolved minPtcs objs)[z.toNat]? = some obj →
      (∀ p ∈ particlesOf xyz masses obj.1, ∀ q ∈ particlesOf xyz masses obj.1, ∀ a, |p.pos a - q.pos a| < box / 2))
    (o : Obj) (ho : construct c ⟨xyz, masses, .nested (objs.map Prod.fst), .array (objs.map Prod.snd), box, minPtcs, .com⟩ = .ok o)
    (res : List (List ℝ)) (hrun : EstDensProfsKernel c' choose limit o radii sel (.ok res)) (ε : ℝ) (hε : 0 < ε) :
    ∀ᶠ i in F, ∀ o', construct c ⟨xyzs i, ms i, .nested ((objss i).map Prod.fst), .array ((objss i).map Prod.snd), box, minPtcs, .com⟩ = .ok o' →
      ∀ out, EstDensProfsKernel c' choose limit o' radii sel out → ∃ res', out = .ok res' ∧ CloseTables ε res res' := by
  rcases C113_kernel_partial c c' hc hc' hh xyz masses box objs minPtcs hmin .com hs hr200 choose hch limit o ho radii hradii hpos sel hsel
    _ hrun with ⟨h, -⟩ | ⟨h, -⟩ | ⟨res₀, h, hlen, hrows⟩
  · cases h
  · cases h
  obtain rfl : res = res₀ := by cases h; rfl
  have hunit : 0 < c'.outM / c'.outL ^ 3 := div_pos hc'.outM (pow_pos hc'.outL 3)
  set val : ℝ → Vec ℝ → List (Particle ℝ) → ℝ → ℝ := fun R v ps r =>
    smoothedDensity R v ps (r * R) * (c.inM / c.inL ^ 3) / (c'.outM / c'.outL ^ 3) with hval
  have hentry : ∀ k < sel.length, ∀ᶠ i in F, ∀ (z : Int) (obj' : List Nat × ℝ), sel[k]? = some z → (resolved minPtcs (objss i))[z.toNat]? = some obj' →
      NotCrossing box (particlesOf (xyzs i) (ms i) obj'.1) ∧
      (∀ p ∈ particlesOf (xyzs i) (ms i) obj'.1, p.pos ≠ weightedMean (particlesOf (xyzs i) (ms i) obj'.1)) ∧
      ∀ b < radii.length, ∀ row x r, res[k]? = some row → row[b]? = some x → radii[b]? = some r →
        |val obj'.2 (weightedMean (particlesOf (xyzs i) (ms i) obj'.1)) (particlesOf (xyzs i) (ms i) obj'.1) r - x| ≤ ε := by
    intro k hk
    have hz : sel[k]? = some sel[k] := List.getElem?_eq_getElem hk
    have hzr := hsel.2.2 _ (List.getElem_mem hk)
    have hob : (resolved minPtcs objs)[sel[k].toNat]? = some ((resolved minPtcs objs)[sel[k].toNat]'(by omega)) := List.getElem?_eq_getElem (by omega)
    generalize hobjdef : (resolved minPtcs objs)[sel[k].toNat]'(by omega) = obj at hob
    have hmem : obj ∈ objs := List.mem_of_mem_filter (List.mem_of_getElem? hob)
    have o1 := hobj _ obj (List.getElem_mem hk) hob
    obtain ⟨R, hRi, hnear, hcross⟩ := object_near happ hs hss hmin hob o1
    obtain ⟨row, hrow, hrl, sub, -, -, hsub, hcen, hans, -⟩ := hrows k _ obj hz hob fun p hp q hq a => (o1 p hp q hq a).le
    rw [hsub rfl] at hans hcen
    have hR := hr200 obj hmem
    have hoff : ∀ᶠ i in F, ∀ p ∈ particlesOf (xyzs i) (ms i) obj.1, p.pos ≠ weightedMean (particlesOf (xyzs i) (ms i) obj.1) := by
      have : ∀ᶠ i in F, ∀ j ∈ Finset.range (particlesOf xyz masses obj.1).length,
          0 < radius (weightedMean (particlesOf (xyzs i) (ms i) obj.1)) (nth (particlesOf (xyzs i) (ms i) obj.1) j) := by
        refine (Filter.eventually_all_finset _).2 fun j hj => ?_
        rw [Finset.mem_range] at hj
        exact (hnear.radius hj).eventually_const_lt (radius_pos (hcen _ (nth_mem hj)))
      filter_upwards [this] with i hi p hp hpe
      obtain ⟨j, hj, hjp⟩ := List.getElem_of_mem hp
      have hj' := hi j (Finset.mem_range.2 (by rw [← hnear.number i]; exact hj))
      have : nth (particlesOf (xyzs i) (ms i) obj.1) j = p := by
        unfold nth
        rw [List.getD_eq_getElem?_getD, List.getElem?_eq_getElem hj, hjp]; rfl
      rw [this] at hj'
      unfold radius at hj'
      rw [← hpe] at hj'
      simp at hj'
    have hall : ∀ᶠ i in F, ∀ b ∈ Finset.range radii.length, ∀ x r, row[b]? = some x → radii[b]? = some r →
        |val (R i) (weightedMean (particlesOf (xyzs i) (ms i) obj.1)) (particlesOf (xyzs i) (ms i) obj.1) r - x| ≤ ε := by
      refine (Filter.eventually_all_finset _).2 fun b hb => ?_
      rw [Finset.mem_range] at hb
      have hbrow : row[b]? = some (row[b]'(by omega)) := List.getElem?_eq_getElem (by omega)
      have hbr : radii[b]? = some radii[b] := List.getElem?_eq_getElem hb
      have hr := hpos _ (List.getElem_mem hb)
      have hx : row[b]'(by omega) = val obj.2 (weightedMean (particlesOf xyz masses obj.1)) (particlesOf xyz masses obj.1) radii[b] := by
        rw [hval]
        beta_reduce
        rw [eq_div_iff hunit.ne']
        exact hans b _ _ hbrow hbr
      have hlim : Tendsto (fun i => val (R i) (weightedMean (particlesOf (xyzs i) (ms i) obj.1)) (particlesOf (xyzs i) (ms i) obj.1) radii[b]) F
          (𝓝 (val obj.2 (weightedMean (particlesOf xyz masses obj.1)) (particlesOf xyz masses obj.1) radii[b])) := by
        refine Tendsto.div_const (Tendsto.mul_const _ ?_) _
        have := Binning.C181_kernel hnear hR hcen (mul_pos hr hR) (hnear.r200.const_mul radii[b])
        rw [densKernel_smoothed _ hR _ _ (fun p hp => radius_pos (hcen p hp)) _ (mul_pos hr hR)] at this
        refine this.congr' ?_
        filter_upwards [hoff, hnear.r200.eventually_const_lt hR] with i hi hRp
        exact densKernel_smoothed _ hRp _ _ (fun p hp => radius_pos (hi p hp)) _ (mul_pos hr hRp)
      rw [← hx] at hlim
      have := hlim.sub_const (row[b]'(by omega))
      rw [sub_self] at this
      have := this.abs
      rw [abs_zero] at this
      filter_upwards [this.eventually_lt_const hε] with i hi x r hx hr
      rw [hbrow] at hx
      rw [hbr] at hr
      obtain rfl := Option.some.inj hx
      obtain rfl := Option.some.inj hr
      exact hi.le
    filter_upwards [hcross, hoff, hall] with i h1 h0 h2 z obj' hz' hobj'
    rw [hz] at hz'
    obtain rfl := Option.some.inj hz'
    rw [hRi i] at hobj'
    obtain rfl := Option.some.inj hobj'
    refine ⟨h1, h0, fun b hb row' x r hrow' hx hr => ?_⟩
    rw [hrow] at hrow'
    obtain rfl := Option.some.inj hrow'
    exact h2 b (Finset.mem_range.2 hb) x r hx hr
  have hentries : ∀ᶠ i in F, ∀ k ∈ Finset.range sel.length, ∀ (z : Int) (obj' : List Nat × ℝ), sel[k]? = some z →
      (resolved minPtcs (objss i))[z.toNat]? = some obj' →
      NotCrossing box (particlesOf (xyzs i) (ms i) obj'.1) ∧
      (∀ p ∈ particlesOf (xyzs i) (ms i) obj'.1, p.pos ≠ weightedMean (particlesOf (xyzs i) (ms i) obj'.1)) ∧
      ∀ b < radii.length, ∀ row x r, res[k]? = some row → row[b]? = some x → radii[b]? = some r →
        |val obj'.2 (weightedMean (particlesOf (xyzs i) (ms i) obj'.1)) (particlesOf (xyzs i) (ms i) obj'.1) r - x| ≤ ε :=
    (Filter.eventually_all_finset _).2 fun k hk => hentry k (Finset.mem_range.1 hk)
  filter_upwards [hentries] with i hi o' ho' out hout
  have hlr := resolved_length minPtcs (happ.members i)
  rcases C113_kernel_partial c c' hc hc' hh (xyzs i) (ms i) box (objss i) minPtcs hmin .com (hss i) (hr200s i) choose hch limit o' ho' radii hradii hpos
    sel (by rw [hlr]; exact hsel) out hout with ⟨-, h⟩ | ⟨-, z, hz, obj', hob', hdiv⟩ | ⟨res', rfl, hlen', hrows'⟩
  · cases h
  · exfalso
    obtain ⟨k, hk, rfl⟩ := List.getElem_of_mem hz
    obtain ⟨h1, h2, -⟩ := hi k (Finset.mem_range.2 hk) _ obj' (List.getElem?_eq_getElem hk) hob'
    obtain ⟨sub, -, -, hsub, p, hp, hpe⟩ := hdiv h1
    rw [hsub rfl] at hpe
    exact h2 p hp hpe
  · refine ⟨res', rfl, by rw [hlen', hlen], fun k row row' hrow hrow' => ?_⟩
    have hk : k < sel.length := by rw [← hlen]; exact (List.getElem?_eq_some_iff.1 hrow).1
    have hz : sel[k]? = some sel[k] := List.getElem?_eq_getElem hk
    have hzr := hsel.2.2 _ (List.getElem_mem hk)
    have hob : (resolved minPtcs objs)[sel[k].toNat]? = some ((resolved minPtcs objs)[sel[k].toNat]'(by omega)) := List.getElem?_eq_getElem (by omega)
    have hob' : (resolved minPtcs (objss i))[sel[k].toNat]? = some ((resolved minPtcs (objss i))[sel[k].toNat]'(by omega)) :=
      List.getElem?_eq_getElem (by omega)
    obtain ⟨row₀, g1, g2, -⟩ := hrows k _ _ hz hob fun p hp q hq a => (hobj _ _ (List.getElem_mem hk) hob p hp q hq a).le
    obtain rfl : row = row₀ := by rw [hrow] at g1; exact Option.some.inj g1
    obtain ⟨h1, -, h2⟩ := hi k (Finset.mem_range.2 hk) _ _ hz hob'
    obtain ⟨row₁, f1, f2, sub, -, -, hsub, -, hans, -⟩ := hrows' k _ _ hz hob' h1
    obtain rfl : row' = row₁ := by rw [hrow'] at f1; exact Option.some.inj f1
    rw [hsub rfl] at hans
    refine ⟨by rw [f2, g2], fun b x x' hx hx' => ?_⟩
    have hb : b < radii.length := by rw [← g2]; exact (List.getElem?_eq_some_iff.1 hx).1
    have hbr : radii[b]? = some radii[b] := List.getElem?_eq_getElem hb
    have hx'' : x' = val ((resolved minPtcs (objss i))[sel[k].toNat]'(by omega)).2
        (weightedMean (particlesOf (xyzs i) (ms i) ((resolved minPtcs (objss i))[sel[k].toNat]'(by omega)).1))
        (particlesOf (xyzs i) (ms i) ((resolved minPtcs (objss i))[sel[k].toNat]'(by omega)).1) radii[b] := by
      rw [hval]
      beta_reduce
      rw [eq_div_iff hunit.ne']
      exact hans b _ _ hx' hbr
    rw [hx'']
    exact h2 b hb row x _ hrow hx hbr

end

/-! ## The cross -/

theorem cross_radius : ∀ p ∈ particlesOf crossXyz [1, 1, 1, 1, 1, 1] [0, 1, 2, 3, 4, 5],
    1 ≤ radius (weightedMean (particlesOf crossXyz [1, 1, 1, 1, 1, 1] [0, 1, 2, 3, 4, 5])) p ∧
    radius (weightedMean (particlesOf crossXyz [1, 1, 1, 1, 1, 1] [0, 1, 2, 3, 4, 5])) p ≤ 3 := by
  rw [cross_mean, cross_particles]
  intro p hp
  unfold radius
  rw [Real.one_le_sqrt, Real.sqrt_le_left (by norm_num)]
  simp only [List.mem_cons, List.not_mem_nil, or_false] at hp
  rcases hp with rfl | rfl | rfl | rfl | rfl | rfl <;> simp only [Shapes.vec3_0, Shapes.vec3_1, Shapes.vec3_2] <;> norm_num

/-- The hypotheses of `C184_density` and `C184_kernel` are met by the cross of `C183_cross`: all its particles are in the first of two bins, and
both calls return a table. -/
example (c : Cfg ℝ) (hc : c.Pos) (choose : Nat → List Nat) (hch : ∀ n, 0 < n → ∃ j ∈ choose n, j < n) (limit : Nat) :
    (∀ p ∈ particlesOf crossXyz [1, 1, 1, 1, 1, 1] [0, 1, 2, 3, 4, 5], ∀ b < [(1 / 40 : ℝ), 1 / 20].length,
      radius (weightedMean (particlesOf crossXyz [1, 1, 1, 1, 1, 1] [0, 1, 2, 3, 4, 5])) p ≠ lowerEdge [1 / 40, 1 / 20] b * 100 ∧
      radius (weightedMean (particlesOf crossXyz [1, 1, 1, 1, 1, 1] [0, 1, 2, 3, 4, 5])) p ≠ upperEdge [1 / 40, 1 / 20] b * 100) ∧
    ∃ o res res', construct c ⟨crossXyz, [1, 1, 1, 1, 1, 1], .nested [[0, 1, 2, 3, 4, 5]], .array [100], 20, 6, .com⟩ = .ok o ∧
      EstDensProfs c choose limit o [1 / 40, 1 / 20] [0] (.ok res) ∧ EstDensProfsKernel c choose limit o [1 / 40, 1 / 20] [0] (.ok res') := by
  have hres : resolved 6 [([0, 1, 2, 3, 4, 5], (100 : ℝ))] = [([0, 1, 2, 3, 4, 5], 100)] := by simp [resolved]
  have hsel : GoodSelection [0] (resolved 6 [([0, 1, 2, 3, 4, 5], (100 : ℝ))]).length := by
    rw [hres]
    exact ⟨by simp, by simp, by simp⟩
  have hs := cross_sensible
  refine ⟨fun p hp b hb => ?_, ?_⟩
  · obtain ⟨h1, h2⟩ := cross_radius p hp
    have : b = 0 ∨ b = 1 := by
      have : b < 2 := hb
      omega
    rcases this with rfl | rfl <;> constructor <;> intro hc <;> rw [hc] at h1 h2 <;> revert h1 h2 <;> norm_num [lowerEdge, upperEdge]
  · obtain ⟨o, ho⟩ : ∃ o, construct c ⟨crossXyz, [1, 1, 1, 1, 1, 1], .nested ([([0, 1, 2, 3, 4, 5], (100 : ℝ))].map Prod.fst),
        .array ([([0, 1, 2, 3, 4, 5], (100 : ℝ))].map Prod.snd), 20, 6, .com⟩ = .ok o :=
      ⟨_, construct_eq c crossXyz _ 20 [([0, 1, 2, 3, 4, 5], 100)] 6 .com hs.lengths hs.objects⟩
    obtain ⟨out, hout⟩ := C96_outcome_exists c c crossXyz _ 20 [([0, 1, 2, 3, 4, 5], 100)] 6 (by norm_num) .com hs choose limit o ho [1 / 40, 1 / 20] [0]
      hsel
    obtain ⟨out', hout'⟩ := C113_outcome_exists c c crossXyz _ 20 [([0, 1, 2, 3, 4, 5], 100)] 6 (by norm_num) .com hs choose limit o ho
      [1 / 40, 1 / 20] [0] hsel
    rcases C96_density_partial c c hc hc rfl crossXyz _ 20 [([0, 1, 2, 3, 4, 5], 100)] 6 (by norm_num) .com hs (by simp) choose hch limit o ho
      [1 / 40, 1 / 20] (by simp) (by simp; norm_num) (by norm_num) [0] hsel out hout with ⟨-, h⟩ | ⟨res, rfl, -⟩
    · cases h
    rcases C113_kernel_partial c c hc hc rfl crossXyz _ 20 [([0, 1, 2, 3, 4, 5], 100)] 6 (by norm_num) .com hs (by simp) choose hch limit o ho
      [1 / 40, 1 / 20] (by simp) (by norm_num) [0] hsel out' hout' with ⟨-, h⟩ | ⟨-, z, hz, obj, hob, hdiv⟩ | ⟨res', rfl, -⟩
    · cases h
    · exfalso
      simp only [List.mem_singleton] at hz
      subst hz
      rw [hres] at hob
      obtain rfl := Option.some.inj hob
      obtain ⟨sub, -, -, hsub, p, hp, hpe⟩ := hdiv fun p hp q hq a => by
        have h1 := cross_bounds p hp a
        have h2 := cross_bounds q hq a
        rw [abs_le]
        constructor <;> linarith
      rw [hsub rfl] at hpe
      have := (cross_radius p hp).1
      unfold radius at this
      rw [← hpe] at this
      norm_num at this
    · exact ⟨o, res, res', ho, hout, hout'⟩

end Verif.Api
