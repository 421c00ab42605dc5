import Verif.Binning.Props
import Verif.Par.Threads

/-!
# Density profiles of a catalogue, computed in parallel (C78)

`calcDensProfsSphDirectBinning`, `cosmic_profiles/dens_profs/dens_profs_algos.pyx:103-108`.
-/

namespace Verif.Binning

open Verif.Par

/-! ## Model -/

/-- Scratch arrays of one thread: rows of `xyz_obj`, `m_obj`, `shell`
(dens_profs_algos.pyx:92-94). -/
structure DensScratch where
  xyz : List (Vec ℝ)
  m : List ℝ
  shell : List Nat

/-- What the loop reads of object `p`: its particles in catalogue order, center and R200. -/
structure ObjectData where
  particles : List (Particle ℝ)
  center : Vec ℝ
  r200 : ℝ

/-- Body of the `prange` loop for one object, dens_profs_algos.pyx:104-108: gathering the particles
into the scratch rows one by one, unwrapping the first `size` of them in place, and binning.  The
output slot is row `p` of `dens_profs`. -/
noncomputable def densBody (L : ℝ) (edges : List ℝ) (o : ObjectData) :
    List (Action DensScratch (List ℝ)) :=
  let size := o.particles.length
  (o.particles.zipIdx.map fun pn => fun x =>
    ({ x.1 with xyz := x.1.xyz.set pn.2 pn.1.pos, m := x.1.m.set pn.2 pn.1.mass }, x.2)) ++
  [fun x => ({ x.1 with
      xyz := Periodic.cyRespectPBCNoRef (x.1.xyz.take size) L ++ x.1.xyz.drop size }, x.2),
   fun x =>
    let r := densProfSph (List.zipWith Particle.mk (x.1.xyz.take size) (x.1.m.take size))
      o.center o.r200 edges x.1.shell
    ({ x.1 with shell := r.2 }, r.1)]

/-! ## Lemmas -/

theorem foldl_gather {R : Type} (ps : List (Particle ℝ)) (k : Nat) (s : DensScratch) (out : R)
    (hx : k + ps.length ≤ s.xyz.length) (hm : k + ps.length ≤ s.m.length) :
    runBody ((ps.zipIdx k).map fun pn => fun (x : DensScratch × R) =>
      ({ x.1 with xyz := x.1.xyz.set pn.2 pn.1.pos, m := x.1.m.set pn.2 pn.1.mass }, x.2)) (s, out) =
    ({ xyz := s.xyz.take k ++ ps.map (fun p => p.pos) ++ s.xyz.drop (k + ps.length),
       m := s.m.take k ++ ps.map (fun p => p.mass) ++ s.m.drop (k + ps.length),
       shell := s.shell }, out) := by
  have hset : ∀ {α : Type} (l : List α) (v : α), k < l.length →
      (l.set k v).take (k + 1) = l.take k ++ [v] := by
    intro α l v h
    rw [List.take_add_one, List.take_set_of_le (le_refl k)]
    simp [h]
  induction ps generalizing k s with
  | nil => simp [runBody]
  | cons p ps ih =>
    simp only [List.length_cons] at hx hm
    have := ih (k + 1) { s with xyz := s.xyz.set k p.pos, m := s.m.set k p.mass }
      (by simp; omega) (by simp; omega) (by
        intro α l v h
        rw [List.take_add_one, List.take_set_of_le (le_refl _)]
        simp [h])
    simp only [List.zipIdx_cons, List.map_cons, runBody, List.foldl_cons] at this ⊢
    rw [this]
    simp only [hset s.xyz p.pos (by omega), hset s.m p.mass (by omega), List.length_cons]
    rw [List.drop_set_of_lt (by omega), List.drop_set_of_lt (by omega)]
    simp [Nat.add_assoc, Nat.add_comm 1]

theorem cyLoop_length (L : ℝ) (n : Nat) (xyz : List (Vec ℝ)) (i : Nat) :
    (Periodic.cyLoop L xyz i n).length = xyz.length := by
  induction n generalizing xyz i with
  | zero => rfl
  | succ n ih =>
    unfold Periodic.cyLoop
    split
    · rw [ih]; simp
    · rfl

theorem cyRespect_length (xyz : List (Vec ℝ)) (L : ℝ) :
    (Periodic.cyRespectPBCNoRef xyz L).length = xyz.length := by
  unfold Periodic.cyRespectPBCNoRef
  split
  · rfl
  · exact cyLoop_length _ _ _ _

theorem scan_shell_length (inside : Nat → Bool) (n : Nat) (shell : List Nat) :
    (scan inside n shell).shell.length = shell.length := by
  unfold scan
  have : ∀ (l : List Nat) (s : ScanState), (l.foldl (scanStep inside) s).shell.length =
      s.shell.length := by
    intro l
    induction l with
    | nil => intro s; rfl
    | cons i l ih =>
      intro s
      rw [List.foldl_cons, ih]
      unfold scanStep
      split <;> simp
  exact this _ _

theorem densProfSph_shell_length (ps : List (Particle ℝ)) (center : Vec ℝ) (r200 : ℝ)
    (edges : List ℝ) (shell : List Nat) :
    (densProfSph ps center r200 edges shell).2.length = shell.length := by
  unfold densProfSph
  generalize List.range (edges.length - 1) = l
  have : ∀ (l : List Nat) (st : List ℝ × List Nat), (l.foldl (fun st r =>
      ((st.1 ++ [accumulate ps (scan (inSph ps center r200 (at0 edges r) (at0 edges (r + 1)))
        ps.length st.2) fun m =>
      m / (4 / 3 * Real.pi * ((at0 edges (r + 1) * r200) ^ 3 - (at0 edges r * r200) ^ 3))],
      (scan (inSph ps center r200 (at0 edges r) (at0 edges (r + 1))) ps.length st.2).shell) :
        List ℝ × List Nat)) st).2.length = st.2.length := by
    intro l
    induction l with
    | nil => intro st; rfl
    | cons r l ih =>
      intro st
      rw [List.foldl_cons, ih]
      exact scan_shell_length _ _ _
  exact this l _

/-! ## Property -/

/-- The density profile of one object on its own, with fresh scratch memory. -/
noncomputable def aloneProfile (L : ℝ) (edges : List ℝ) (o : ObjectData) : List ℝ :=
  (densProfSph (List.zipWith Particle.mk
      (Periodic.cyRespectPBCNoRef (o.particles.map fun p => p.pos) L)
      (o.particles.map fun p => p.mass))
    o.center o.r200 edges (List.replicate o.particles.length 0)).1

/-- C78. However many threads share the work, however the objects are distributed among them and
however their steps interleave, and whatever previous objects left behind in the scratch arrays, each
row of the result is the profile the object has on its own.  (The scratch arrays are as long as the
largest object.) -/
theorem C78_no_crosstalk {T : Type} [DecidableEq T] (L : ℝ) (edges : List ℝ) (objs : List ObjectData)
    (largest : Nat) (hl : ∀ o ∈ objs, o.particles.length ≤ largest)
    (scratch : T → DensScratch) (hs : ∀ t, (scratch t).xyz.length = largest ∧
      (scratch t).m.length = largest ∧ (scratch t).shell.length = largest)
    (out0 : Nat → List ℝ)
    (ws : List (Step T Nat DensScratch (List ℝ)))
    (ex : Execution (fun p => (objs[p]?.map (densBody L edges)).getD []) (List.range objs.length) ws)
    (p : Nat) (o : ObjectData) (hp : objs[p]? = some o) :
    (runSteps ws ⟨scratch, out0⟩).out p = aloneProfile L edges o := by
  have hlt : p < objs.length := (List.getElem?_eq_some_iff.1 hp).1
  have := (execution_result _ _ ws ex ⟨scratch, out0⟩
    (fun s => s.xyz.length = largest ∧ s.m.length = largest ∧ s.shell.length = largest) hs
    (fun p => (objs[p]?.map (aloneProfile L edges)).getD []) ?_).1 p (by simpa using hlt)
  · rw [this, hp]; rfl
  · intro q hq s hs
    have hq : q < objs.length := by simpa using hq
    obtain ⟨o, ho⟩ : ∃ o, objs[q]? = some o := ⟨_, List.getElem?_eq_getElem hq⟩
    have hsize := hl o (List.mem_of_getElem? ho)
    simp only [ho, Option.map_some, Option.getD_some]
    unfold densBody
    have hsplit : ∀ (a b : List (Action DensScratch (List ℝ))) x,
        runBody (a ++ b) x = runBody b (runBody a x) := by
      intro a b x; simp [runBody, List.foldl_append]
    rw [hsplit, foldl_gather o.particles 0 s _ (by omega) (by omega)]
    simp only [runBody, List.foldl_cons, List.foldl_nil, List.take_zero, List.nil_append]
    have h1 : ((o.particles.map fun p => p.pos) ++ s.xyz.drop (0 + o.particles.length)).take
        o.particles.length = o.particles.map fun p => p.pos := by
      rw [List.take_append_of_le_length (by simp)]; simp
    have h2 : ((o.particles.map fun p => p.mass) ++ s.m.drop (0 + o.particles.length)).take
        o.particles.length = o.particles.map fun p => p.mass := by
      rw [List.take_append_of_le_length (by simp)]; simp
    rw [h1, h2]
    have h3 : ∀ rest, (Periodic.cyRespectPBCNoRef (o.particles.map fun p => p.pos) L ++ rest).take
        o.particles.length = Periodic.cyRespectPBCNoRef (o.particles.map fun p => p.pos) L := by
      intro rest
      rw [List.take_append_of_le_length (by simp [cyRespect_length])]
      rw [List.take_of_length_le (by simp [cyRespect_length])]
    rw [h3]
    refine ⟨⟨?_, ?_, ?_⟩, ?_⟩
    · simp [cyRespect_length]; omega
    · simp; omega
    · rw [densProfSph_shell_length]; exact hs.2.2
    · unfold aloneProfile
      rw [densProfSph_eq _ _ _ _ _ (by simp [cyRespect_length]; omega),
        densProfSph_eq _ _ _ _ _ (by simp [cyRespect_length])]

/-- Two objects on one thread, with garbage in the scratch arrays. -/
example (c : Vec ℝ) : ∃ ws : List (Step Unit Nat DensScratch (List ℝ)),
    (runSteps ws ⟨fun _ => ⟨[c, c], [3, 4], [7, 7]⟩, fun _ => []⟩).out 1 =
      aloneProfile 10 [0, 1] ⟨[⟨![1, 0, 0], 5⟩], c, 1⟩ :=
  ⟨_, C78_no_crosstalk 10 [0, 1] [⟨[⟨![1, 0, 0], 5⟩, ⟨![3, 0, 0], 7⟩], c, 2⟩, ⟨[⟨![1, 0, 0], 5⟩], c, 1⟩]
    2 (by simp) _ (by simp) _ _ (Execution.oneThread _ _ (List.nodup_range) ()) 1 _ rfl⟩

end Verif.Binning
