import Verif.Api.GadgetProps
import Verif.Api.DensProps
import Verif.Api.Shapes

/-!
# Sessions with an object made from Gadget files (C118)

What a sequence of calls does to an object of `DensShapeProfsGadget`: `getR200` and `getIdxCat` read the
group files again (through the cache of `getFoFSHData`) and replace the radii of the object
(`cosmic_profiles/shape_profs/shape_profs_classes.pyx:786-829`), while density profiles and shapes use the
radii of the object together with the positions read by the constructor
(`cosmic_profiles/dens_profs/dens_profs_classes.pyx:96-160`,
`cosmic_profiles/shape_profs/shape_profs_classes.pyx:75-146`).  Process 0.
-/

set_option linter.unusedSectionVars false

namespace Verif.Api

open Verif.Units Verif.Catalogue Verif.Gadget Verif.Binning
open Verif.Shapes (Solver)

/-! ## Model -/

/-- State of a program: unit systems, the object, and the group tables in the cache of `getFoFSHData`
(read_fof.py:135-138), if they are there. -/
structure Session where
  cfg : Cfg ℝ
  obj : Obj
  cache : Option Tables

/-- Calls; `inUnits` and `outUnits` are accepted calls of `updateInUnitSystem`, `updateOutUnitSystem`
(config.py:104-160; rejected ones change nothing else than C13 says). -/
inductive Call
  | inUnits (l m v : ℝ)
  | outUnits (l m v : ℝ)
  | getR200
  | getIdxCat
  | getXYZMasses
  | getMassesCenters (sel : List Int)
  | estDensProfs (radii : List ℝ) (sel : List Int)
  | getShapeCat (katz : Katz) (whole : Bool) (sel : List Int)

/-- What a call of the user answers. -/
inductive Reply
  | nothing
  | failed (e : GErr)
  | r200 (r : List ℝ)
  | idxCat (cat sizes : List Nat)
  | xyzMasses (out : Except GErr (List (Vec ℝ) × List ℝ))
  | massesCenters (out : Except Err (List (Vec ℝ × ℝ)))
  | densProfs (out : Except Err (List (List ℝ)))
  | shapeCat (out : Except ShapeErr (List (List ShapeEntry)))

/-- `getFoFSHData` with its cache, read_fof.py:135-138, as a relation: result, and contents of the cache
afterwards.  The cache may have lost the tables (evicted, C03) and may not accept new ones (memory limit,
C07). -/
inductive Fetch (mc : Machine) (i : GInput) (s : Session) : Except GErr Tables → Option Tables → Prop
  | hit (t : Tables) (h : s.cache = some t) : Fetch mc i s (.ok t) (some t)
  | stored (t : Tables) (h : readTables s.cfg mc i = .ok t) : Fetch mc i s (.ok t) (some t)
  | full (t : Tables) (h : readTables s.cfg mc i = .ok t) : Fetch mc i s (.ok t) none
  | failed (e : GErr) (h : readTables s.cfg mc i = .error e) : Fetch mc i s (.error e) s.cache

/-- One call with its reply, as a relation (schedules of parallel loops, state of the cache). -/
inductive Step (mc : Machine) (i : GInput) (sol : Solver) (choose : Nat → List Nat) (limit : Nat)
    (s : Session) : Call → Reply → Session → Prop
  | inUnits (l m v : ℝ) : Step mc i sol choose limit s (.inUnits l m v) .nothing
      { s with cfg := { s.cfg with inL := l, inM := m, inV := v } }
  | outUnits (l m v : ℝ) : Step mc i sol choose limit s (.outUnits l m v) .nothing
      { s with cfg := { s.cfg with outL := l, outM := m, outV := v } }
  /-- `getR200`, shape_profs_classes.pyx:786-807 -/
  | getR200 (t : Tables) (cache : Option Tables) (hf : Fetch mc i s (.ok t) cache)
      (cat : List Int) (r : List ℝ) (sizes : List Int) (hc : Catalogued t i.minPtcs (some (cat, r, sizes)))
      (l m : ℝ) (hu : internalLM s.cfg = .ok (l, m)) :
      Step mc i sol choose limit s .getR200 (.r200 (r.map fun x => x * (l / s.cfg.outL)))
        { s with obj := { s.obj with r200 := r }, cache := cache }
  | getR200NoTables (e : GErr) (cache : Option Tables) (hf : Fetch mc i s (.error e) cache) :
      Step mc i sol choose limit s .getR200 (.failed e) { s with cache := cache }
  | getR200NoCatalogue (t : Tables) (cache : Option Tables) (hf : Fetch mc i s (.ok t) cache)
      (hc : Catalogued t i.minPtcs none) :
      Step mc i sol choose limit s .getR200 (.failed .catalogue) { s with cache := cache }
  /-- `getIdxCat`, shape_profs_classes.pyx:809-829 -/
  | getIdxCat (t : Tables) (cache : Option Tables) (hf : Fetch mc i s (.ok t) cache)
      (cat : List Int) (r : List ℝ) (sizes : List Int) (hc : Catalogued t i.minPtcs (some (cat, r, sizes))) :
      Step mc i sol choose limit s .getIdxCat (.idxCat (cat.map Int.toNat) (sizes.map Int.toNat))
        { s with obj := { s.obj with r200 := r }, cache := cache }
  | getIdxCatNoTables (e : GErr) (cache : Option Tables) (hf : Fetch mc i s (.error e) cache) :
      Step mc i sol choose limit s .getIdxCat (.failed e) { s with cache := cache }
  | getIdxCatNoCatalogue (t : Tables) (cache : Option Tables) (hf : Fetch mc i s (.ok t) cache)
      (hc : Catalogued t i.minPtcs none) :
      Step mc i sol choose limit s .getIdxCat (.failed .catalogue) { s with cache := cache }
  | getXYZMasses : Step mc i sol choose limit s .getXYZMasses (.xyzMasses (gadgetXYZMasses s.cfg mc i)) s
  | getMassesCenters (sel : List Int) (out : Except Err (List (Vec ℝ × ℝ)))
      (h : GetMassesCenters s.cfg choose limit s.obj sel out) :
      Step mc i sol choose limit s (.getMassesCenters sel) (.massesCenters out) s
  | estDensProfs (radii : List ℝ) (sel : List Int) (out : Except Err (List (List ℝ)))
      (h : EstDensProfs s.cfg choose limit s.obj radii sel out) :
      Step mc i sol choose limit s (.estDensProfs radii sel) (.densProfs out) s
  | getShapeCat (katz : Katz) (whole : Bool) (sel : List Int)
      (out : Except ShapeErr (List (List ShapeEntry)))
      (h : GetShapeCat s.cfg sol choose limit s.obj katz whole sel out) :
      Step mc i sol choose limit s (.getShapeCat katz whole sel) (.shapeCat out) s

/-- Calls one after another. -/
inductive Runs (mc : Machine) (i : GInput) (sol : Solver) (choose : Nat → List Nat) (limit : Nat) :
    Session → List (Call × Reply) → Session → Prop
  | nil (s : Session) : Runs mc i sol choose limit s [] s
  | cons (s s' s'' : Session) (call : Call) (reply : Reply) (rest : List (Call × Reply))
      (h : Step mc i sol choose limit s call reply s') (hs : Runs mc i sol choose limit s' rest s'') :
      Runs mc i sol choose limit s ((call, reply) :: rest) s''

/-! ## Specification -/

/-- The reply is possible in this state. -/
def CanReply (mc : Machine) (i : GInput) (sol : Solver) (choose : Nat → List Nat) (limit : Nat)
    (s : Session) (call : Call) (reply : Reply) : Prop :=
  ∃ s', Step mc i sol choose limit s call reply s'

/-- The call does not change the input unit of length to something else than `l`. -/
def Call.Keeps (l : ℝ) : Call → Prop
  | .inUnits l' _ _ => l' = l
  | _ => True

/-- The unit systems after the calls. -/
def unitsAfter (c : Cfg ℝ) : List Call → Cfg ℝ
  | [] => c
  | .inUnits l m v :: rest => unitsAfter { c with inL := l, inM := m, inV := v } rest
  | .outUnits l m v :: rest => unitsAfter { c with outL := l, outM := m, outV := v } rest
  | _ :: rest => unitsAfter c rest

/-! ## Proofs -/

section
variable {mc : Machine} {i : GInput} {sol : Solver} {choose : Nat → List Nat} {limit : Nat}

theorem readTables_congr (c c' : Cfg ℝ) (h1 : c'.inL = c.inL) (h2 : c'.h = c.h) :
    readTables c' mc i = readTables c mc i := by
  unfold readTables
  rw [internalLM_eq, internalLM_eq, h1, h2]

/-- What stays true as long as the input unit of length stays the same. -/
structure Kept (mc : Machine) (i : GInput) (c : Cfg ℝ) (o : Obj) (t : Tables) (s : Session) : Prop where
  inL : s.cfg.inL = c.inL
  h : s.cfg.h = c.h
  obj : s.obj = o
  cache : ∀ t', s.cache = some t' → t' = t

variable {c : Cfg ℝ} {o : Obj} {t : Tables} (ht : readTables c mc i = .ok t) (cat : List Int) (sizes : List Int)
  (hcat : ∀ out, Catalogued t i.minPtcs out ↔ out = some (cat, o.r200, sizes))
include ht hcat

theorem fetch_kept {s : Session} (hk : Kept mc i c o t s) (r : Except GErr Tables) (cache : Option Tables)
    (hf : Fetch mc i s r cache) : r = .ok t ∧ ∀ t', cache = some t' → t' = t := by
  have hread : readTables s.cfg mc i = .ok t := by rw [readTables_congr c s.cfg hk.inL hk.h, ht]
  cases hf with
  | hit t' h => exact ⟨by rw [hk.cache t' h], fun t'' e => by rw [← Option.some.inj e]; exact hk.cache t' h⟩
  | stored t' h => rw [hread] at h; obtain rfl := Except.ok.inj h; exact ⟨rfl, fun _ e => (Option.some.inj e).symm⟩
  | full t' h => rw [hread] at h; obtain rfl := Except.ok.inj h; exact ⟨rfl, fun _ e => by cases e⟩
  | failed e h => rw [hread] at h; cases h

theorem step_kept {s s' : Session} (hk : Kept mc i c o t s) (call : Call) (reply : Reply)
    (hc : call.Keeps c.inL) (h : Step mc i sol choose limit s call reply s') :
    Kept mc i c o t s' ∧ s'.cfg = unitsAfter s.cfg [call] := by
  have key : ∀ {t' cache cat' r sizes'}, Fetch mc i s (.ok t') cache →
      Catalogued t' i.minPtcs (some (cat', r, sizes')) →
      Kept mc i c o t { s with obj := { s.obj with r200 := r }, cache := cache } := by
    intro t' cache cat' r sizes' hf hcl
    obtain ⟨e, hca⟩ := fetch_kept ht cat sizes hcat hk _ _ hf
    obtain rfl := Except.ok.inj e
    have := Option.some.inj ((hcat _).1 hcl)
    simp only [Prod.mk.injEq] at this
    refine ⟨hk.inL, hk.h, ?_, hca⟩
    simp only [this.2.1, hk.obj]
  cases h with
  | inUnits l m v => exact ⟨⟨hc, hk.h, hk.obj, hk.cache⟩, rfl⟩
  | outUnits l m v => exact ⟨⟨hk.inL, hk.h, hk.obj, hk.cache⟩, rfl⟩
  | getR200 t' cache hf cat' r sizes' hcl l m hu => exact ⟨key hf hcl, rfl⟩
  | getR200NoTables e cache hf =>
    obtain ⟨e, -⟩ := fetch_kept ht cat sizes hcat hk _ _ hf; cases e
  | getR200NoCatalogue t' cache hf hcl =>
    obtain ⟨e, -⟩ := fetch_kept ht cat sizes hcat hk _ _ hf
    obtain rfl := Except.ok.inj e
    exact absurd ((hcat _).1 hcl) (by simp)
  | getIdxCat t' cache hf cat' r sizes' hcl => exact ⟨key hf hcl, rfl⟩
  | getIdxCatNoTables e cache hf =>
    obtain ⟨e, -⟩ := fetch_kept ht cat sizes hcat hk _ _ hf; cases e
  | getIdxCatNoCatalogue t' cache hf hcl =>
    obtain ⟨e, -⟩ := fetch_kept ht cat sizes hcat hk _ _ hf
    obtain rfl := Except.ok.inj e
    exact absurd ((hcat _).1 hcl) (by simp)
  | getXYZMasses => exact ⟨hk, rfl⟩
  | getMassesCenters => exact ⟨hk, rfl⟩
  | estDensProfs => exact ⟨hk, rfl⟩
  | getShapeCat => exact ⟨hk, rfl⟩

theorem unitsAfter_cons (c : Cfg ℝ) (call : Call) (rest : List Call) :
    unitsAfter c (call :: rest) = unitsAfter (unitsAfter c [call]) rest := by
  cases call <;> rfl

theorem runs_kept {s s' : Session} (hk : Kept mc i c o t s) (calls : List (Call × Reply))
    (hc : ∀ x ∈ calls, x.1.Keeps c.inL) (h : Runs mc i sol choose limit s calls s') :
    Kept mc i c o t s' ∧ s'.cfg = unitsAfter s.cfg (calls.map Prod.fst) := by
  induction h with
  | nil s => exact ⟨hk, rfl⟩
  | cons s s' s'' call reply rest h hs ih =>
    obtain ⟨k1, k2⟩ := step_kept ht cat sizes hcat hk call reply (hc _ List.mem_cons_self) h
    obtain ⟨k3, k4⟩ := ih k1 fun x hx => hc x (List.mem_cons_of_mem _ hx)
    refine ⟨k3, ?_⟩
    rw [k4, k2, List.map_cons]
    exact (unitsAfter_cons ht cat sizes hcat _ _ _).symm

/-- Two kept states with the same units give the same replies. -/
theorem reply_kept {s s' : Session} (hk : Kept mc i c o t s) (hk' : Kept mc i c o t s')
    (hcfg : s'.cfg = s.cfg) (call : Call) (reply : Reply)
    (h : CanReply mc i sol choose limit s call reply) : CanReply mc i sol choose limit s' call reply := by
  have hread : readTables s'.cfg mc i = .ok t := by rw [readTables_congr c s'.cfg hk'.inL hk'.h, ht]
  have hobj : s'.obj = s.obj := hk'.obj.trans hk.obj.symm
  obtain ⟨x, h⟩ := h
  cases h with
  | inUnits l m v => exact ⟨_, .inUnits l m v⟩
  | outUnits l m v => exact ⟨_, .outUnits l m v⟩
  | getR200 t' cache hf cat' r sizes' hcl l m hu =>
    obtain ⟨e, hca⟩ := fetch_kept ht cat sizes hcat hk _ _ hf
    obtain rfl := Except.ok.inj e
    rw [← hcfg]
    rw [← hcfg] at hu
    exact ⟨_, .getR200 t' none (.full t' hread) cat' r sizes' hcl l m hu⟩
  | getR200NoTables e cache hf =>
    obtain ⟨e, -⟩ := fetch_kept ht cat sizes hcat hk _ _ hf; cases e
  | getR200NoCatalogue t' cache hf hcl =>
    obtain ⟨e, -⟩ := fetch_kept ht cat sizes hcat hk _ _ hf
    obtain rfl := Except.ok.inj e
    exact absurd ((hcat _).1 hcl) (by simp)
  | getIdxCat t' cache hf cat' r sizes' hcl =>
    obtain ⟨e, hca⟩ := fetch_kept ht cat sizes hcat hk _ _ hf
    obtain rfl := Except.ok.inj e
    exact ⟨_, .getIdxCat t' none (.full t' hread) cat' r sizes' hcl⟩
  | getIdxCatNoTables e cache hf =>
    obtain ⟨e, -⟩ := fetch_kept ht cat sizes hcat hk _ _ hf; cases e
  | getIdxCatNoCatalogue t' cache hf hcl =>
    obtain ⟨e, -⟩ := fetch_kept ht cat sizes hcat hk _ _ hf
    obtain rfl := Except.ok.inj e
    exact absurd ((hcat _).1 hcl) (by simp)
  | getXYZMasses => rw [← hcfg]; exact ⟨_, .getXYZMasses⟩
  | getMassesCenters sel out h => rw [← hcfg, ← hobj] at h; exact ⟨_, .getMassesCenters sel out h⟩
  | estDensProfs radii sel out h => rw [← hcfg, ← hobj] at h; exact ⟨_, .estDensProfs radii sel out h⟩
  | getShapeCat katz whole sel out h => rw [← hcfg, ← hobj] at h; exact ⟨_, .getShapeCat katz whole sel out h⟩

end

/-! ## C118 -/

/-- C118 (partial). Make an object from the files of a simulation and call its methods in any order, changing
units in between, but not the input unit of length.  Then at any time every call has exactly the replies which it
would have if it were the first one, made in the unit systems of that time; these are those set last.
Missing: changes of the input unit of length (`C118_getter_changes_results_refuted`). -/
theorem C118_history_partial (c : Cfg ℝ) (hc : c.Pos) (mc : Machine) (hrank : mc.rank = 0)
    (hsize : 0 < mc.size) (i : GInput) (pt : Nat) (hpt : getPartType i.objType = .ok pt)
    (hw : i.rvirOrR200 = "Rvir" ∨ i.rvirOrR200 = "R200") (sim : Simulation)
    (hlen : sim.pos.length = sim.mass.length)
    (hs : StoredIn mc i.snapshot pt sim) (hg : GroupsOf i.groupFiles i.rvirOrR200 pt sim)
    (hne : centrals sim.groups ≠ []) (sol : Solver) (choose : Nat → List Nat) (limit : Nat) (o : Obj)
    (ho : GadgetConstruct c mc i (.ok o)) (cache : Option Tables)
    (hcache : ∀ t, cache = some t → readTables c mc i = .ok t)
    (calls : List (Call × Reply)) (hcalls : ∀ x ∈ calls, x.1.Keeps c.inL) (s : Session)
    (hrun : Runs mc i sol choose limit ⟨c, o, cache⟩ calls s) (call : Call) (reply : Reply) :
    CanReply mc i sol choose limit s call reply ↔
      CanReply mc i sol choose limit ⟨unitsAfter c (calls.map Prod.fst), o, none⟩ call reply := by
  have hgne : sim.groups ≠ [] := by rintro h0; exact hne (by simp [h0, centrals])
  have ht := readTables_eq c mc i pt hpt hw hsize sim hg hgne
  have hcat := catalogued_iff mc.f32 (c.inL / mpch c.h) sim.groups hgne i.minPtcs
  obtain ⟨a, ha, hoa⟩ := (C100_files_as_arrays c hc mc hrank hsize i pt hpt hw sim hlen hs hg hne _).1 ho
  obtain rfl := Except.ok.inj hoa
  rw [construct_eq c sim.pos sim.mass sim.box (centrals sim.groups) i.minPtcs i.center hlen hne] at ha
  obtain rfl := Except.ok.inj ha
  have hcat' : ∀ out, Catalogued _ i.minPtcs out ↔ out = some _ := hcat
  have hr : (resolved i.minPtcs (centrals sim.groups)).map (fun o => mc.f32 (o.2 * (c.inL / mpch c.h))) =
      ((resolved i.minPtcs (centrals sim.groups)).map fun o => o.2 * (c.inL / mpch c.h)).map mc.f32 := by
    rw [List.map_map]; rfl
  rw [hr] at hcat'
  have hk0 : ∀ o : Obj, Kept mc i c o _ ⟨c, o, cache⟩ := fun o => ⟨rfl, rfl, rfl, fun t' e => by
    have := hcache t' e
    rw [ht] at this
    exact (Except.ok.inj this).symm⟩
  obtain ⟨hk, hcfg⟩ := runs_kept ht _ _ hcat' (hk0 _) calls hcalls hrun
  have hL : (unitsAfter c (calls.map Prod.fst)).inL = c.inL := by rw [← hk.inL, hcfg]
  have hh : (unitsAfter c (calls.map Prod.fst)).h = c.h := by rw [← hk.h, hcfg]
  have hk' : ∀ (o : Obj) (t : Tables), Kept mc i c o t ⟨unitsAfter c (calls.map Prod.fst), o, none⟩ :=
    fun o t => ⟨hL, hh, rfl, fun _ e => by cases e⟩
  exact ⟨reply_kept ht _ _ hcat' hk (hk' _ _) hcfg.symm call reply,
    reply_kept ht _ _ hcat' (hk' _ _) hk hcfg call reply⟩

/-! ### The input unit of length changes -/

theorem centrals_exampleSim : centrals exampleSim.groups = [([0, 1], 4)] := by
  simp [centrals, exampleSim, startOf, List.range_succ]

/-- Density of the object of `exampleSim` if its radius were `r`: one bin, both particles are 1/3 and 2/3 away from
the centre. -/
theorem example_density (c c' : Cfg ℝ) (hc : c.Pos) (hc' : c'.Pos) (hh : c'.h = c.h) (r : ℝ) (hr : 0 < r)
    (choose : Nat → List Nat) (hch : ∀ n, 0 < n → ∃ j ∈ choose n, j < n) (limit : Nat) (o : Obj)
    (ho : construct c ⟨exampleSim.pos, exampleSim.mass, .nested [[0, 1]], .array [r], 10, 2, .com⟩ = .ok o) :
    (∃ out, EstDensProfs c' choose limit o [1] [0] out) ∧
    ∀ out, EstDensProfs c' choose limit o [1] [0] out → ∃ d, out = .ok [[d]] ∧
      (r ≤ 1 / 3 → d = 0) ∧ (r = 4 → 0 < d) := by
  have hs : Sensible exampleSim.pos exampleSim.mass 10 [([0, 1], r)] := by
    obtain ⟨h1, h2, h3, h4, -, h6⟩ := exampleSim_files.2.2.1
    refine ⟨h1, by norm_num, h3, h4, by simp, ?_⟩
    intro o ho j hj
    rw [List.mem_singleton] at ho
    subst ho
    exact h6 ([0, 1], 4) (by rw [centrals_exampleSim]; simp) j hj
  have hres : resolved 2 [([0, 1], r)] = [([0, 1], r)] := by simp [resolved]
  have hsel : GoodSelection [0] (resolved 2 [([0, 1], r)]).length := by
    rw [hres]; exact ⟨by simp, by simp, by simp⟩
  have hparts : particlesOf exampleSim.pos exampleSim.mass [0, 1] = [⟨![1, 1, 1], 1⟩, ⟨![2, 1, 1], 2⟩] := by
    simp [particlesOf, exampleSim]
  refine ⟨C96_outcome_exists c c' _ _ _ _ 2 (by norm_num) .com hs choose limit o ho _ _ hsel, ?_⟩
  intro out hrun
  rcases C96_density_partial c c' hc hc' hh _ _ 10 [([0, 1], r)] 2 (by norm_num) .com hs (by simpa using hr)
    choose hch limit o ho [1] (by simp) (by simp) (by norm_num) [0] hsel out hrun with ⟨-, h⟩ | ⟨res, rfl, hlen, h⟩
  · cases h
  obtain ⟨row, hrow, hrl, sub, -, -, hsub, hd⟩ := h 0 0 ([0, 1], r) rfl (by rw [hres]; rfl) (by
    rw [hparts]
    intro p hp q hq a
    simp only [List.mem_cons, List.not_mem_nil, or_false] at hp hq
    rcases hp with rfl | rfl <;> rcases hq with rfl | rfl <;> fin_cases a <;> norm_num)
  obtain rfl := hsub rfl
  match res, hlen, hrow with
  | [x], _, e =>
    obtain rfl : x = row := by simpa using e
    match x, hrl with
    | [d], _ =>
      refine ⟨d, rfl, ?_⟩
      have hd := hd 0 d rfl
      rw [hparts] at hd
      have hmean : weightedMean [(⟨![1, 1, 1], 1⟩ : Particle ℝ), ⟨![2, 1, 1], 2⟩] = ![5 / 3, 1, 1] := by
        funext a
        fin_cases a <;> simp [weightedMean, totalMass] <;> norm_num
      have r1 : radius ![5 / 3, 1, 1] ⟨![1, 1, 1], 1⟩ = 2 / 3 := by
        unfold radius
        rw [Real.sqrt_eq_iff_mul_self_eq (by positivity) (by norm_num)]
        simp; norm_num
      have r2 : radius ![5 / 3, 1, 1] ⟨![2, 1, 1], 2⟩ = 1 / 3 := by
        unfold radius
        rw [Real.sqrt_eq_iff_mul_self_eq (by positivity) (by norm_num)]
        simp; norm_num
      have hlo : lowerEdge [1] 0 = 1e-8 := by simp [lowerEdge]
      have hhi : upperEdge [1] 0 = 1 := by simp [upperEdge]
      rw [hmean, hlo, hhi] at hd
      have hvol : 0 < c'.outM / c'.outL ^ 3 * shellVolume (1e-8 * r * c.inL) (1 * r * c.inL) := by
        have h1 := hc'.outM
        have h2 := hc'.outL
        have h3 := hc.inL
        have h4 : shellVolume (1e-8 * r * c.inL) (1 * r * c.inL) =
            4 / 3 * Real.pi * ((1 - 1e-24) * (r ^ 3 * c.inL ^ 3)) := by
          unfold shellVolume; ring
        rw [h4]
        have h5 : (0 : ℝ) < 1 - 1e-24 := by norm_num
        positivity
      rw [mul_assoc] at hd
      refine ⟨fun hr3 => ?_, ?_⟩
      · have hm : massBetween ![5 / 3, 1, 1] [⟨![1, 1, 1], 1⟩, ⟨![2, 1, 1], 2⟩] (1e-8 * r) (1 * r) = 0 := by
          unfold massBetween
          simp only [List.filter_cons, List.filter_nil, r1, r2]
          rw [if_neg (by simp; intro; linarith), if_neg (by simp; intro; linarith)]
          simp
        rw [hm, zero_mul] at hd
        exact (mul_eq_zero.1 hd).resolve_right hvol.ne'
      · rintro rfl
        have hm : massBetween ![5 / 3, 1, 1] [⟨![1, 1, 1], 1⟩, ⟨![2, 1, 1], 2⟩] (1e-8 * 4) (1 * 4) = 3 := by
          unfold massBetween
          simp only [List.filter_cons, List.filter_nil, r1, r2]
          norm_num
        rw [hm] at hd
        have := hc.inM
        by_contra hn
        have : d * (c'.outM / c'.outL ^ 3 * shellVolume (1e-8 * 4 * c.inL) (1 * 4 * c.inL)) ≤ 0 :=
          mul_nonpos_of_nonpos_of_nonneg (not_lt.1 hn) hvol.le
        linarith

/-- C118 is false if the input unit of length changes: after the object has been made from the files of
`exampleSim`, the unit is replaced by one which is a thousand times smaller.  Then density profiles are still
those of the object (the density within R200 is positive).  But once the user has looked at the radii with
`getR200` (tables not in the cache), the same call gives density zero. -/
theorem C118_getter_changes_results_refuted (c : Cfg ℝ) (hc : c.Pos) (sol : Solver) (choose : Nat → List Nat)
    (hch : ∀ n, 0 < n → ∃ j ∈ choose n, j < n) (limit : Nat) (m v : ℝ) (hm : 0 < m) (hv : 0 < v) :
    ∃ o, GadgetConstruct c exampleMachine exampleInput (.ok o) ∧
    ∃ s radii s',
      Runs exampleMachine exampleInput sol choose limit ⟨c, o, none⟩ [(.inUnits (c.inL / 1000) m v, .nothing)] s ∧
      (∃ d, 0 < d ∧ CanReply exampleMachine exampleInput sol choose limit s (.estDensProfs [1] [0])
        (.densProfs (.ok [[d]]))) ∧
      (¬ CanReply exampleMachine exampleInput sol choose limit s (.estDensProfs [1] [0])
        (.densProfs (.ok [[0]]))) ∧
      Runs exampleMachine exampleInput sol choose limit s [(.getR200, .r200 radii)] s' ∧
      ∀ reply, CanReply exampleMachine exampleInput sol choose limit s' (.estDensProfs [1] [0]) reply ↔
        reply = .densProfs (.ok [[0]]) := by
  obtain ⟨hsnap, hgr, hsens, hres⟩ := exampleSim_files
  have hne : centrals exampleSim.groups ≠ [] := hsens.objects
  have hgne : exampleSim.groups ≠ [] := by simp [exampleSim]
  have hcon := fun r : ℝ => construct_eq c exampleSim.pos exampleSim.mass 10 [([0, 1], r)] 2 .com rfl (by simp)
  set c1 : Cfg ℝ := { c with inL := c.inL / 1000, inM := m, inV := v } with hc1
  have hc1p : c1.Pos := by
    obtain ⟨_, _, _, _, _, _, _⟩ := hc
    constructor <;> simp only [hc1] <;> first | assumption | positivity
  have hresr : ∀ r : ℝ, resolved 2 [([0, 1], r)] = [([0, 1], r)] := fun r => by simp [resolved]
  obtain ⟨o, ho⟩ : ∃ o, construct c ⟨exampleSim.pos, exampleSim.mass, .nested [[0, 1]], .array [4], 10, 2,
    .com⟩ = .ok o := ⟨_, hcon 4⟩
  have hoe := Except.ok.inj ((hcon 4).symm.trans ho)
  have hor : { o with r200 := o.r200.map exampleMachine.f32 } = o := by
    simp [exampleMachine]
  have ht := readTables_eq c1 exampleMachine exampleInput 1 rfl (.inl rfl) (by decide) exampleSim hgr hgne
  have hcat := catalogued_iff exampleMachine.f32 (c1.inL / mpch c1.h) exampleSim.groups hgne exampleInput.minPtcs
  have hres' : resolved exampleInput.minPtcs (centrals exampleSim.groups) = [([0, 1], 4)] := hres
  rw [hres'] at hcat
  obtain ⟨d1, d2⟩ := example_density c c1 hc hc1p rfl 4 (by norm_num) choose hch limit o ho
  have ho' : construct c ⟨exampleSim.pos, exampleSim.mass, .nested [[0, 1]], .array [4 / 1000], 10, 2,
    .com⟩ = .ok { o with r200 := [exampleMachine.f32 (4 * (c1.inL / mpch c1.h))] } := by
    refine (hcon (4 / 1000)).trans ?_
    rw [← hoe, hresr, hresr]
    have : (4 / 1000 : ℝ) * (c.inL / mpch c.h) = 4 * (c.inL / 1000 / mpch c.h) := by ring
    simp only [exampleMachine, id, hc1, List.map_cons, List.map_nil, this]
  obtain ⟨e1, e2⟩ := example_density c c1 hc hc1p rfl (4 / 1000) (by norm_num) choose hch limit _ ho'
  refine ⟨o, ?_, ⟨c1, o, none⟩,
    [exampleMachine.f32 (4 * (c1.inL / mpch c1.h)) * (mpch c1.h / c1.outL)], ⟨c1, { o with r200 := [exampleMachine.f32 (4 * (c1.inL / mpch c1.h))] }, none⟩,
    .cons _ _ _ _ _ _ (.inUnits _ m v) (.nil _), ?_, ?_, ?_, ?_⟩
  · refine (C100_files_as_arrays c hc exampleMachine rfl (by decide) exampleInput 1 rfl (.inl rfl) exampleSim
      rfl hsnap hgr hne _).2 ⟨o, ?_, by rw [hor]⟩
    rw [centrals_exampleSim]
    exact ho
  · obtain ⟨out, hout⟩ := d1
    obtain ⟨d, rfl, -, hd⟩ := d2 out hout
    exact ⟨d, hd rfl, _, .estDensProfs _ _ _ hout⟩
  · rintro ⟨_, h⟩
    cases h with
    | estDensProfs _ _ _ h =>
      obtain ⟨d, hd, -, hp⟩ := d2 _ h
      simp only [Except.ok.injEq, List.cons.injEq, and_true] at hd
      have := hp rfl
      linarith
  · exact .cons _ _ _ _ _ _ (.getR200 _ none (.full _ ht) _ _ _ ((hcat _).2 rfl) _ _ (internalLM_eq c1))
      (.nil _)
  · intro reply
    constructor
    · rintro ⟨_, h⟩
      cases h with
      | estDensProfs _ _ out h =>
        obtain ⟨d, rfl, hd, -⟩ := e2 _ h
        rw [hd (by norm_num)]
    · rintro rfl
      obtain ⟨out, hout⟩ := e1
      obtain ⟨d, rfl, hd, -⟩ := e2 out hout
      rw [hd (by norm_num)] at hout
      exact ⟨_, .estDensProfs _ _ _ hout⟩

/-- A session as in `C118_history_partial` with the files of `exampleSim`: new output units, radii, catalogue,
new input unit of mass. -/
example (c : Cfg ℝ) (hc : c.Pos) (sol : Solver) (choose : Nat → List Nat) (limit : Nat) :
    ∃ o r cat sizes s, GadgetConstruct c exampleMachine exampleInput (.ok o) ∧
      Runs exampleMachine exampleInput sol choose limit ⟨c, o, none⟩
        [(.outUnits 2 3 4, .nothing), (.getR200, .r200 r), (.getIdxCat, .idxCat cat sizes),
          (.inUnits c.inL 5 6, .nothing)] s := by
  obtain ⟨hsnap, hgr, hsens, hres⟩ := exampleSim_files
  have hgne : exampleSim.groups ≠ [] := by simp [exampleSim]
  set c1 : Cfg ℝ := { c with outL := 2, outM := 3, outV := 4 }
  have ht := readTables_eq c1 exampleMachine exampleInput 1 rfl (.inl rfl) (by decide) exampleSim hgr hgne
  have hcat := catalogued_iff exampleMachine.f32 (c1.inL / mpch c1.h) exampleSim.groups hgne exampleInput.minPtcs
  exact ⟨_, _, _, _, _, (C100_files_as_arrays c hc exampleMachine rfl (by decide) exampleInput 1 rfl (.inl rfl)
      exampleSim rfl hsnap hgr hsens.objects _).2
      ⟨_, construct_eq c exampleSim.pos exampleSim.mass exampleSim.box _ _ _ rfl hsens.objects, rfl⟩,
    .cons _ _ _ _ _ _ (.outUnits 2 3 4) (.cons _ _ _ _ _ _
      (.getR200 _ _ (.stored _ ht) _ _ _ ((hcat _).2 rfl) _ _ (internalLM_eq c1))
      (.cons _ _ _ _ _ _ (.getIdxCat _ _ (.hit _ rfl) _ _ _ ((hcat _).2 rfl))
        (.cons _ _ _ _ _ _ (.inUnits _ 5 6) (.nil _))))⟩

end Verif.Api
