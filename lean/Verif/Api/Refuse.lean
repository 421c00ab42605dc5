import Verif.Api.GadgetProps

/-!
# Unusable input is refused (C124)

What `DensShapeProfsGadget.__init__` (`cosmic_profiles/shape_profs/shape_profs_classes.pyx:541-592`) does with
missing files, files without groups, and unknown names of types and radii.
-/

namespace Verif.Api

open Verif.Units Verif.Catalogue Verif.Gadget

/-! ## Specification -/

/-- Reasons for which no object can be made. -/
inductive Unusable (mc : Machine) (i : GInput) : Prop
  /-- the type of particles is none of the three known ones -/
  | objType (h : i.objType ≠ "dm" ∧ i.objType ≠ "stars" ∧ i.objType ≠ "gas")
  /-- the definition of the radius is none of the two known ones -/
  | radius (h : i.rvirOrR200 ≠ "Rvir" ∧ i.rvirOrR200 ≠ "R200")
  /-- there are no group files -/
  | noGroupFiles (h : i.groupFiles = [])
  /-- no group file contains a group -/
  | noGroups (h : ∀ f ∈ i.groupFiles, f.groups = none ∨ f.groups = some [])
  /-- there is no snapshot under any of the names which are tried -/
  | noSnapshot (h : ∀ ending ∈ ["", ".0", ".hdf5", ".0.hdf5"], mc.disk.exists_ (i.snapshot ++ ending) = false)

/-! ## Proofs -/

/-- If the definition of the radius is unknown or the files are empty, then no groups are collected. -/
theorem readFiles_no_groups {K : Type} [Mul K] (f32 : K → K) (factor : K) (which : String) (pt : Nat)
    (files : List (Gadget.File K)) (acc acc' : Collected K)
    (h : (which ≠ "Rvir" ∧ which ≠ "R200") ∨ ∀ f ∈ files, f.groups = none ∨ f.groups = some [])
    (hr : files.foldlM (fun acc file => readFile f32 factor which pt file acc) acc = .ok acc') :
    acc'.nbShs = acc.nbShs := by
  induction files generalizing acc with
  | nil => cases hr; rfl
  | cons f fs ih =>
    rw [List.foldlM_cons] at hr
    cases hf : readFile f32 factor which pt f acc with
    | error e => rw [hf] at hr; cases hr
    | ok a =>
      rw [hf] at hr
      have := ih a (h.imp_right fun h g hg => h g (List.mem_cons_of_mem _ hg)) hr
      rw [this]
      unfold readFile at hf
      cases hg : f.groups with
      | none =>
        rw [hg] at hf
        simp only [Except.ok.injEq] at hf
        rw [← hf]
        cases f.subhalos <;> rfl
      | some gs =>
        rw [hg] at hf
        simp only at hf
        split at hf
        · rename_i hw
          obtain rfl : gs = [] := by
            rcases h with h | h
            · exact absurd hw (not_or.2 h)
            · rcases h f List.mem_cons_self with h | h <;> rw [hg] at h <;> cases h
              rfl
          simp only [Except.ok.injEq] at hf
          rw [← hf]
          cases f.subhalos <;> simp
        · cases hf

theorem mapM_mem {α β ε : Type} (f : α → Except ε β) (l : List α) (bs : List β) (h : l.mapM f = .ok bs) :
    ∀ b ∈ bs, ∃ a ∈ l, f a = .ok b := by
  induction l generalizing bs with
  | nil =>
    rw [List.mapM_nil] at h
    cases h
    simp
  | cons a l ih =>
    rw [List.mapM_cons] at h
    cases ha : f a with
    | error e => rw [ha] at h; cases h
    | ok b =>
      rw [ha] at h
      cases hl : l.mapM f with
      | error e => rw [hl] at h; cases h
      | ok bs' =>
        rw [hl] at h
        cases h
        intro c hc
        rcases List.mem_cons.1 hc with rfl | hc
        · exact ⟨a, List.mem_cons_self, ha⟩
        · obtain ⟨a', h1, h2⟩ := ih bs' hl c hc
          exact ⟨a', List.mem_cons_of_mem _ h1, h2⟩

theorem readTables_no_groups (c : Cfg ℝ) (mc : Machine) (i : GInput)
    (h : (i.rvirOrR200 ≠ "Rvir" ∧ i.rvirOrR200 ≠ "R200") ∨ ∀ f ∈ i.groupFiles, f.groups = none ∨ f.groups = some []) :
    ∃ e, readTables c mc i = .error e := by
  unfold readTables
  rw [internalLM_eq]
  simp only
  cases getPartType i.objType with
  | error e => exact ⟨_, rfl⟩
  | ok pt =>
    simp only
    cases hr : readFoF mc.f32 (c.inL / mpch c.h) mc.limit i.rvirOrR200 pt i.groupFiles mc.size with
    | error e => exact ⟨_, rfl⟩
    | ok r =>
      obtain ⟨nb, sh, fof, r⟩ := r
      have hnb : nb = [] := by
        unfold readFoF at hr
        split at hr
        · cases hr
        · cases hm : (List.range mc.size).mapM (readLocal mc.f32 (c.inL / mpch c.h) i.rvirOrR200 pt i.groupFiles mc.size) with
          | error e => rw [hm] at hr; cases hr
          | ok locals =>
            rw [hm] at hr
            simp only [Except.map, Except.ok.injEq, Prod.mk.injEq] at hr
            have h0 : ∀ l ∈ locals, l.nbShs = [] := by
              intro l hl
              obtain ⟨rank, -, hrank⟩ := mapM_mem _ _ _ hm l hl
              unfold readLocal at hrank
              refine readFiles_no_groups _ _ _ _ _ _ _ (h.imp_right fun h f hf => ?_) hrank
              obtain ⟨j, -, hj⟩ := List.mem_filterMap.1 hf
              exact h f (List.mem_of_getElem? hj)
            rw [← hr.1, C53_broadcast, gatherv_eq]
            simpa using h0
      simp only [hnb, List.mapM_nil]
      dsimp only [pure]
      cases sh.mapM id <;> cases fof.mapM id <;> cases r.mapM id <;> exact ⟨_, rfl⟩

/-- C124. From unusable input no object is made, on any process: making it always fails.  (On several processes a failure of
one of them may leave others waiting for it, see `readFoF`; they make no object either.) -/
theorem C124_refused (c : Cfg ℝ) (mc : Machine) (i : GInput) (h : Unusable mc i) :
    (∃ out, GadgetConstruct c mc i out) ∧ ∀ out, GadgetConstruct c mc i out → ∃ e, out = .error e := by
  have key : (∃ e, readTables c mc i = .error e) ∨ ∃ e, readParticles c mc i = .error e := by
    cases h with
    | objType h =>
      refine .inl ?_
      unfold readTables
      rw [internalLM_eq]
      simp only [getPartType, h.1, h.2.1, h.2.2, if_false]
      exact ⟨_, rfl⟩
    | radius h => exact .inl (readTables_no_groups c mc i (.inl h))
    | noGroupFiles h => exact .inl (readTables_no_groups c mc i (.inr (by simp [h])))
    | noGroups h => exact .inl (readTables_no_groups c mc i (.inr h))
    | noSnapshot h =>
      refine .inr ?_
      have h0 := h "" (by simp)
      rw [String.append_empty] at h0
      have hall : ∀ (pt : Nat) (b : Block), readAll mc.disk mc.f64 (unitFac c (mpch c.h) (msunh10 c.h)) i.snapshot b [pt] =
          .error .exception := by
        intro pt b
        unfold readAll fnameFormat
        simp [h0, h ".0" (by simp), h ".hdf5" (by simp), h ".0.hdf5" (by simp), Except.bind]
      unfold readParticles
      rw [internalLM_eq]
      simp only [hall]
      cases getPartType i.objType <;> exact ⟨_, rfl⟩
  constructor
  · rcases key with ⟨e, h⟩ | ⟨e, h⟩
    · exact ⟨_, .tables e h⟩
    · exact ⟨_, .particles e h⟩
  · intro out hout
    cases hout with
    | tables e h => exact ⟨e, rfl⟩
    | particles e h => exact ⟨e, rfl⟩
    | box e h => exact ⟨e, rfl⟩
    | other _ _ _ _ _ _ _ => exact ⟨_, rfl⟩
    | noCatalogue _ _ _ _ => exact ⟨_, rfl⟩
    | finished _ t ht p hp _ _ _ _ _ _ =>
      rcases key with ⟨e, h⟩ | ⟨e, h⟩
      · rw [h] at ht; cases ht
      · rw [h] at hp; cases hp

/-- The usable input of C100 with one thing missing. -/
example (c : Cfg ℝ) : ∀ out, GadgetConstruct c exampleMachine { exampleInput with objType := "halo" } out →
    ∃ e, out = .error e :=
  (C124_refused c _ _ (.objType (by decide))).2

example (c : Cfg ℝ) : ∀ out, GadgetConstruct c { exampleMachine with disk := ⟨fun _ => none, fun _ => none⟩ } exampleInput out →
    ∃ e, out = .error e :=
  (C124_refused c _ _ (.noSnapshot (by intro _ _; rfl))).2

example (c : Cfg ℝ) : ∀ out, GadgetConstruct c exampleMachine { exampleInput with groupFiles := [⟨none, none⟩] } out →
    ∃ e, out = .error e :=
  (C124_refused c _ _ (.noGroups (by simp))).2

end Verif.Api
