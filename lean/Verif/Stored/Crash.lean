import Verif.Stored.Props
import Mathlib.Tactic.NormNum

/-!
# Stored shape catalogues: histories, units and crashes (C60-C62)
-/

namespace Verif.Stored

/-! ## Specification -/

/-- No file of the catalogue exists. -/
def noFiles : Files := fun _ => none

/-- The process dies after `k` complete files; of the next one arbitrary contents may exist. -/
def crashed (f : Files) (ws : List (Name × Text)) (k : Nat) (torn : Option Text) : Files :=
  match ws[k]?, torn with
  | some w, some t => write ((ws.take k).foldl write f) (w.1, t)
  | _, _ => (ws.take k).foldl write f

/-! ## C60 -/

/-- C60. A catalogue dumped from scratch and requested again, with the same units, is returned as it was
computed, up to the format of the files.  Missing: one radius only (`C60_single_radius_refuted`), other objects
or settings (`C60_refuted`). -/
theorem C60_after_dump_partial (k : Kind) (rnd : ℝ → ℝ) (f : Files) (hf : f .d = none) (u : Out) (hl : u.l ≠ 0)
    (n r : Nat) (hn : 1 ≤ n) (hr : k.Radii r) (D : Data) (hD : D.Good n r) :
    ∃ f', dump k rnd f u D.cat = .ok f' ∧ get k f' u n r D.cat = .ok ((D.answer u).round rnd) := by
  obtain ⟨f', h1, h2⟩ := dump_stored k rnd f hf u n r hn D hD
  exact ⟨f', h1, get_stored k f' rnd u u hl n r hn hr D hD h2 _⟩

/-- C60 is false, in general: whatever is asked for after a dump (`B`: other objects, other tolerance, other
radii), the dumped shapes are returned. -/
theorem stored_wins (k : Kind) (rnd : ℝ → ℝ) (f : Files) (hf : f .d = none) (u : Out) (hl : u.l ≠ 0) (n r : Nat)
    (hn : 1 ≤ n) (hr : k.Radii r) (A : Data) (hA : A.Good n r) :
    ∃ f', dump k rnd f u A.cat = .ok f' ∧ ∀ B : Data, get k f' u n r B.cat = .ok ((A.answer u).round rnd) := by
  obtain ⟨f', h1, h2⟩ := dump_stored k rnd f hf u n r hn A hA
  exact ⟨f', h1, fun B => get_stored k f' rnd u u hl n r hn hr A hA h2 B.cat⟩

/-- An object with semi-major axis `x` at two radii. -/
def sample (x : ℝ) : Data where
  d := [[some x, some (x + 1)]]
  q := [[some 1, some 1]]
  s := [[some 1, some 1]]
  minor := [[[some 1, some 0, some 0], [some 1, some 0, some 0]]]
  inter := [[[some 0, some 1, some 0], [some 0, some 1, some 0]]]
  major := [[[some 0, some 0, some 1], [some 0, some 0, some 1]]]
  masses := [some 1]
  centers := [[some 0, some 0, some 0]]

theorem sample_good (x : ℝ) : (sample x).Good 1 2 := by
  constructor <;> simp [sample, IsTable]

/-- C60 is false: two requests for one object at two radii; after dumping the first, the answer to the second
is that of the first. -/
theorem C60_refuted : ¬ ∀ (k : Kind) (n r : Nat) (A B : Data) (u : Out), 1 ≤ n → k.Radii r → u.l ≠ 0 →
    A.Good n r → B.Good n r → ∀ f', dump k id noFiles u A.cat = .ok f' →
      get k f' u n r B.cat = .ok ((B.answer u).round id) := by
  intro h
  have hl : (⟨1, 1⟩ : Out).l ≠ 0 := by norm_num
  obtain ⟨f', h1, h2⟩ := stored_wins .loc id noFiles rfl ⟨1, 1⟩ hl 1 2 le_rfl (by simp [Kind.Radii]) (sample 1)
    (sample_good 1)
  have h3 := h .loc 1 2 (sample 1) (sample 2) ⟨1, 1⟩ le_rfl (by simp [Kind.Radii]) hl (sample_good 1) (sample_good 2) f' h1
  rw [h2 (sample 2)] at h3
  simp only [Data.answer, Shapes.round, sample, Except.ok.injEq, Shapes.mk.injEq] at h3
  norm_num at h3

/-- C60 is false: a local catalogue at one radius is dumped but can never be read again; the direct request
works. -/
theorem C60_single_radius_refuted (rnd : ℝ → ℝ) (f : Files) (hf : f .d = none) (u : Out) (n : Nat) (hn : 1 ≤ n)
    (D : Data) (hD : D.Good n 1) :
    get .loc f u n 1 D.cat = .ok (D.answer u) ∧
    ∃ f', dump .loc rnd f u D.cat = .ok f' ∧ ∀ v other, ∃ e, get .loc f' v n 1 other = .error e := by
  refine ⟨C60_fresh_partial .loc f hf u n 1 D hD, ?_⟩
  obtain ⟨f', h1, hs⟩ := dump_stored .loc rnd f hf u n 1 hn D hD
  refine ⟨f', h1, fun v other => ?_⟩
  have suff : (∃ e, loadCat .loc f' v = .error e) → ∃ e, get .loc f' v n 1 other = .error e := by
    rintro ⟨e, he⟩
    refine ⟨e, ?_⟩
    unfold get getBase
    rw [hs.d]
    simp only [Option.isSome_some, if_true, bind, Except.bind, he]
  apply suff
  have hdT : IsTable n 1 (D.d.map fun r => r.map fun x : V => (x.map (· * u.l)).map rnd) := hD.d.map _
  -- the number of dimensions of `d`
  have hflat : ∃ l : List V, l.length = n ∧ (D.d.map fun r => r.map fun x : V => (x.map (· * u.l)).map rnd) =
      l.map fun x => [x] := by
    obtain ⟨hlen, hrow⟩ := hdT
    generalize D.d.map (fun r => r.map fun x : V => (x.map (· * u.l)).map rnd) = t at hlen hrow
    refine ⟨t.flatten, by rw [length_flatten_table ⟨hlen, hrow⟩]; omega, ?_⟩
    clear hlen
    induction t with
    | nil => rfl
    | cons a t ih =>
      obtain ⟨x, rfl⟩ := List.length_eq_one_iff.mp (hrow a List.mem_cons_self)
      have := ih fun r hr => hrow r (List.mem_cons_of_mem _ hr)
      conv_lhs => rw [this]
      simp
  obtain ⟨l, hll, hlt⟩ := hflat
  have hdf : f' .d = some (l.map fun x => [x]) := by rw [hs.d, hlt]
  unfold loadCat loadLocal loadAll
  rcases Nat.lt_or_ge 1 n with hn2 | hn1
  · have e1 : load f' .d = .ok (.d1 l) := by rw [load_some hdf]; exact loadtxt_column hn2 l hll
    have hcT : IsTable n 3 (D.centers.map fun row => row.map fun x : V => (x.map (· * u.l)).map rnd) := hD.centers.map _
    have e8 := loadtxt_table hn2 (by omega) hcT
    rw [← load_some hs.centers] at e8
    have hc : ∀ c : ℝ, (Nd.over (.d2 (D.centers.map fun row => row.map fun x : V => (x.map (· * u.l)).map rnd)) c).asCenter
        = .error .value := by
      intro c
      have h3 : IsTable n 3 ((D.centers.map fun row => row.map fun x : V => (x.map (· * u.l)).map rnd).map
        fun row => row.map fun x : V => x.map (· / c)) := hcT.map _
      have := length_flatten_table h3
      unfold Nd.asCenter
      rw [if_neg]
      simp only [Nd.over, Nd.map, Nd.flat, this]
      omega
    simp only [bind, Except.bind, e1, e8]
    cases load f' .q with
    | error e => exact ⟨e, rfl⟩
    | ok q =>
    cases load f' .s with
    | error e => exact ⟨e, rfl⟩
    | ok s =>
    cases load f' .minor with
    | error e => exact ⟨e, rfl⟩
    | ok minor =>
    cases load f' .inter with
    | error e => exact ⟨e, rfl⟩
    | ok inter =>
    cases load f' .major with
    | error e => exact ⟨e, rfl⟩
    | ok major =>
    cases load f' .m with
    | error e => exact ⟨e, rfl⟩
    | ok m =>
    simp only [pure, Except.pure]
    simp only [Nd.over, Nd.map, Nd.shape0] at hc ⊢
    simp only [hc]
    cases minor.reshapeTriples 1 with
    | error e => exact ⟨e, rfl⟩
    | ok minor =>
    cases inter.reshapeTriples 1 with
    | error e => exact ⟨e, rfl⟩
    | ok inter =>
    cases major.reshapeTriples 1 with
    | error e => exact ⟨e, rfl⟩
    | ok major => exact ⟨_, rfl⟩
  · have hn1 : n = 1 := by omega
    subst hn1
    obtain ⟨x, rfl⟩ := List.length_eq_one_iff.mp hll
    have e1 : load f' .d = .ok (.d0 x) := by rw [load_some hdf]; exact loadtxt_number x
    simp only [bind, Except.bind, e1]
    cases load f' .q with
    | error e => exact ⟨e, rfl⟩
    | ok q =>
    cases load f' .s with
    | error e => exact ⟨e, rfl⟩
    | ok s =>
    cases load f' .minor with
    | error e => exact ⟨e, rfl⟩
    | ok minor =>
    cases load f' .inter with
    | error e => exact ⟨e, rfl⟩
    | ok inter =>
    cases load f' .major with
    | error e => exact ⟨e, rfl⟩
    | ok major =>
    cases load f' .m with
    | error e => exact ⟨e, rfl⟩
    | ok m =>
    cases load f' .centers with
    | error e => exact ⟨e, rfl⟩
    | ok c => exact ⟨_, rfl⟩

/-! ## C61 -/

/-- C61. Dumped and loaded with the same units the lengths are the same, whatever units were active in
between.  Missing: other units at load time, `C61_refuted`. -/
theorem C61_same_units_partial (k : Kind) (f : Files) (hf : f .d = none) (u : Out) (hl : u.l ≠ 0) (n r : Nat)
    (hn : 1 ≤ n) (hr : k.Radii r) (D : Data) (hD : D.Good n r) :
    ∃ f', dump k id f u D.cat = .ok f' ∧
      ∃ S, get k f' u n r D.cat = .ok S ∧ S.d = (D.answer u).d := by
  obtain ⟨f', h1, h2⟩ := C60_after_dump_partial k id f hf u hl n r hn hr D hD
  refine ⟨f', h1, _, h2, ?_⟩
  simp [Data.answer, Shapes.round]

/-- C61 is false: what is loaded are the numbers of the dump, in the units of the dump, although the
output units `v` are other ones. -/
theorem C61_refuted : ¬ ∀ (k : Kind) (n r : Nat) (D : Data) (u v : Out), 1 ≤ n → k.Radii r → u.l ≠ 0 → v.l ≠ 0 →
    D.Good n r → ∀ f', dump k id noFiles u D.cat = .ok f' →
      get k f' v n r D.cat = .ok ((D.answer v).round id) := by
  intro h
  obtain ⟨f', h1, h2⟩ := dump_stored .loc id noFiles rfl ⟨1, 1⟩ 1 2 le_rfl (sample 1) (sample_good 1)
  have h3 := h .loc 1 2 (sample 1) ⟨1, 1⟩ ⟨1000, 1⟩ le_rfl (by simp [Kind.Radii]) (by norm_num) (by norm_num)
    (sample_good 1) f' h1
  rw [get_stored .loc f' id ⟨1, 1⟩ ⟨1000, 1⟩ (by norm_num) 1 2 le_rfl (by simp [Kind.Radii]) (sample 1)
    (sample_good 1) h2] at h3
  simp only [Data.answer, Shapes.round, sample, Except.ok.injEq, Shapes.mk.injEq] at h3
  norm_num at h3

/-! ## C62 -/

theorem load_congr {f g : Files} {x : Name} (h : f x = g x) : load f x = load g x := by unfold load; rw [h]

/-- A missing file is an error. -/
theorem get_missing (k : Kind) (f : Files) (v : Out) (n r : Nat) (other : Cat) (hd : (f .d).isSome) (x : Name)
    (hx : f x = none) : ∃ e, get k f v n r other = .error e := by
  have hload : load f x = .error .file := by unfold load; rw [hx]
  have key : ∃ e, loadAll f v = .error e := by
    unfold loadAll
    simp only [bind, Except.bind]
    cases h1 : load f .d with
    | error e => exact ⟨e, rfl⟩
    | ok a1 =>
    cases h2 : load f .q with
    | error e => exact ⟨e, rfl⟩
    | ok a2 =>
    cases h3 : load f .s with
    | error e => exact ⟨e, rfl⟩
    | ok a3 =>
    cases h4 : load f .minor with
    | error e => exact ⟨e, rfl⟩
    | ok a4 =>
    cases h5 : load f .inter with
    | error e => exact ⟨e, rfl⟩
    | ok a5 =>
    cases h6 : load f .major with
    | error e => exact ⟨e, rfl⟩
    | ok a6 =>
    cases h7 : load f .m with
    | error e => exact ⟨e, rfl⟩
    | ok a7 =>
    cases h8 : load f .centers with
    | error e => exact ⟨e, rfl⟩
    | ok a8 =>
      cases x <;> simp_all
  obtain ⟨e, he⟩ := key
  refine ⟨e, ?_⟩
  unfold get getBase
  rw [if_pos hd]
  cases k <;> simp only [loadCat, loadLocal, loadGlobal, bind, Except.bind, he]

/-- The result of reading a catalogue does not depend on the file of centres, unless it is an error. -/
theorem get_centers (k : Kind) (f : Files) (v : Out) (n r : Nat) (other : Cat) (hd : (f .d).isSome) (t : Text) (S : Shapes)
    (h : get k f v n r other = .ok S) :
    get k (write f (.centers, t)) v n r other = .ok S ∨ ∃ e, get k (write f (.centers, t)) v n r other = .error e := by
  set g := write f (.centers, t) with hg
  have hsame : ∀ x, x ≠ Name.centers → g x = f x := by
    intro x hx
    simp [hg, write, hx]
  have key : ∀ c, loadCat k f v = .ok c → (∃ cc, loadCat k g v = .ok { c with centers := cc }) ∨
      ∃ e, loadCat k g v = .error e := by
    intro c hc
    have l1 := load_congr (hsame .d (by decide))
    have l2 := load_congr (hsame .q (by decide))
    have l3 := load_congr (hsame .s (by decide))
    have l4 := load_congr (hsame .minor (by decide))
    have l5 := load_congr (hsame .inter (by decide))
    have l6 := load_congr (hsame .major (by decide))
    have l7 := load_congr (hsame .m (by decide))
    cases h1 : load f .d with
    | error e => exfalso; cases k <;> simp [loadCat, loadLocal, loadGlobal, loadAll, bind, Except.bind, h1] at hc
    | ok a1 =>
    cases h2 : load f .q with
    | error e => exfalso; cases k <;> simp [loadCat, loadLocal, loadGlobal, loadAll, bind, Except.bind, h1, h2] at hc
    | ok a2 =>
    cases h3 : load f .s with
    | error e => exfalso; cases k <;> simp [loadCat, loadLocal, loadGlobal, loadAll, bind, Except.bind, h1, h2, h3] at hc
    | ok a3 =>
    cases h4 : load f .minor with
    | error e =>
      exfalso; cases k <;> simp [loadCat, loadLocal, loadGlobal, loadAll, bind, Except.bind, h1, h2, h3, h4] at hc
    | ok a4 =>
    cases h5 : load f .inter with
    | error e =>
      exfalso; cases k <;> simp [loadCat, loadLocal, loadGlobal, loadAll, bind, Except.bind, h1, h2, h3, h4, h5] at hc
    | ok a5 =>
    cases h6 : load f .major with
    | error e =>
      exfalso; cases k <;> simp [loadCat, loadLocal, loadGlobal, loadAll, bind, Except.bind, h1, h2, h3, h4, h5, h6] at hc
    | ok a6 =>
    cases h7 : load f .m with
    | error e =>
      exfalso
      cases k <;> simp [loadCat, loadLocal, loadGlobal, loadAll, bind, Except.bind, h1, h2, h3, h4, h5, h6, h7] at hc
    | ok a7 =>
    cases h8 : load f .centers with
    | error e =>
      exfalso
      cases k <;> simp [loadCat, loadLocal, loadGlobal, loadAll, bind, Except.bind, h1, h2, h3, h4, h5, h6, h7, h8] at hc
    | ok a8 =>
    rw [h1] at l1; rw [h2] at l2; rw [h3] at l3; rw [h4] at l4; rw [h5] at l5; rw [h6] at l6; rw [h7] at l7
    cases h9 : load g .centers with
    | error e =>
      right
      refine ⟨e, ?_⟩
      cases k <;> simp only [loadCat, loadLocal, loadGlobal, loadAll, bind, Except.bind, l1, l2, l3, l4, l5, l6, l7, h9]
    | ok a9 =>
      cases k with
      | loc =>
        simp only [loadCat, loadLocal, loadAll, bind, Except.bind, pure, Except.pure, h1, h2, h3, h4, h5, h6, h7, h8] at hc
        simp only [loadCat, loadLocal, loadAll, bind, Except.bind, pure, Except.pure, l1, l2, l3, l4, l5, l6, l7, h9]
        cases a1 with
        | d0 x => simp [Nd.over, Nd.map, Nd.shape0] at hc
        | d1 x =>
          simp only [Nd.over, Nd.map, Nd.shape0] at hc ⊢
          cases m1 : a4.reshapeTriples 1 with
          | error e => simp [m1] at hc
          | ok b1 =>
          cases m2 : a5.reshapeTriples 1 with
          | error e => simp [m1, m2] at hc
          | ok b2 =>
          cases m3 : a6.reshapeTriples 1 with
          | error e => simp [m1, m2, m3] at hc
          | ok b3 =>
          simp only [m1, m2, m3] at hc ⊢
          cases m4 : Nd.asCenter (Nd.over a9 v.l) with
          | error e =>
            right
            simp only [Nd.over, Nd.map] at m4
            simp only [m4]
            exact ⟨e, rfl⟩
          | ok b4 =>
            left
            simp only [Nd.over, Nd.map] at m4
            simp only [m4]
            split at hc
            · cases hc
            · injection hc with hc
              subst hc
              exact ⟨_, rfl⟩
        | d2 x =>
          simp only [Nd.over, Nd.map, Nd.shape0] at hc ⊢
          by_cases hx : (List.map (fun r => List.map (fun x : V => Option.map (· / v.l) x) r) x).length ≠ 0
          · rw [if_pos hx] at hc ⊢
            left
            cases m1 : triples a4 with
            | error e => simp [m1] at hc
            | ok b1 =>
            cases m2 : triples a5 with
            | error e => simp [m1, m2] at hc
            | ok b2 =>
            cases m3 : triples a6 with
            | error e => simp [m1, m2, m3] at hc
            | ok b3 =>
            simp only [m1, m2, m3] at hc ⊢
            injection hc with hc
            subst hc
            exact ⟨_, rfl⟩
          · rw [if_neg hx] at hc ⊢
            left
            injection hc with hc
            subst hc
            exact ⟨_, rfl⟩
        | d3 x =>
          simp only [Nd.over, Nd.map, Nd.shape0] at hc ⊢
          left
          injection hc with hc
          subst hc
          exact ⟨_, rfl⟩
      | glob =>
        simp only [loadCat, loadGlobal, loadAll, bind, Except.bind, pure, Except.pure, h1, h2, h3, h4, h5, h6, h7, h8] at hc
        simp only [loadCat, loadGlobal, loadAll, bind, Except.bind, pure, Except.pure, l1, l2, l3, l4, l5, l6, l7, h9]
        cases a1 with
        | d1 x =>
          cases x with
          | nil =>
            left
            simp only [Nd.over, Nd.map, Nd.flat, List.map_nil, List.length_nil, if_true] at hc ⊢
            injection hc with hc
            subst hc
            exact ⟨_, rfl⟩
          | cons x xs =>
            left
            simp only [Nd.over, Nd.map, List.map_cons] at hc ⊢
            cases m1 : triples a4 with
            | error e => simp [m1] at hc
            | ok b1 =>
            cases m2 : triples a5 with
            | error e => simp [m1, m2] at hc
            | ok b2 =>
            cases m3 : triples a6 with
            | error e => simp [m1, m2, m3] at hc
            | ok b3 =>
            simp only [m1, m2, m3] at hc ⊢
            injection hc with hc
            subst hc
            exact ⟨_, rfl⟩
        | d0 x =>
          simp only [Nd.over, Nd.map] at hc ⊢
          cases m1 : a4.reshapeTriples 1 with
          | error e => simp [m1] at hc
          | ok b1 =>
          cases m2 : a5.reshapeTriples 1 with
          | error e => simp [m1, m2] at hc
          | ok b2 =>
          cases m3 : a6.reshapeTriples 1 with
          | error e => simp [m1, m2, m3] at hc
          | ok b3 =>
          simp only [m1, m2, m3] at hc ⊢
          cases m4 : Nd.asCenter (Nd.over a9 v.l) with
          | error e =>
            right
            simp only [Nd.over, Nd.map] at m4
            simp only [m4]
            exact ⟨e, rfl⟩
          | ok b4 =>
            left
            simp only [Nd.over, Nd.map] at m4
            simp only [m4]
            split at hc
            · cases hc
            · injection hc with hc
              subst hc
              exact ⟨_, rfl⟩
        | d2 x =>
          left
          simp only [Nd.over, Nd.map] at hc ⊢
          split at hc
          · rename_i hx
            rw [if_pos hx]
            injection hc with hc
            subst hc
            exact ⟨_, rfl⟩
          · cases hc
        | d3 x =>
          left
          simp only [Nd.over, Nd.map] at hc ⊢
          split at hc
          · rename_i hx
            rw [if_pos hx]
            injection hc with hc
            subst hc
            exact ⟨_, rfl⟩
          · cases hc
  have hgd : (g .d).isSome := by rw [hsame .d (by decide)]; exact hd
  unfold get getBase at h ⊢
  rw [if_pos hd] at h
  rw [if_pos hgd]
  cases hc : loadCat k f v with
  | error e => simp [hc, bind, Except.bind] at h
  | ok c =>
    rcases key c hc with ⟨cc, h'⟩ | ⟨e, h'⟩
    · left
      rw [h']
      rw [hc] at h
      exact h
    · right
      rw [h']
      exact ⟨e, rfl⟩

/-- C62. The process dies at any point while dumping a catalogue into a place without one, with arbitrary
contents of the file being written.  A later request is recomputed, or returns the complete catalogue of the
dump, or is an error. -/
theorem C62_from_scratch_partial (k : Kind) (rnd : ℝ → ℝ) (u v : Out) (hl : v.l ≠ 0) (n r : Nat) (hn : 1 ≤ n) (hr : k.Radii r)
    (D : Data) (hD : D.Good n r) (ws : List (Name × Text)) (hws : dumped rnd u D.cat = .ok ws) (i : Nat)
    (torn : Option Text) :
    get k (crashed noFiles ws i torn) v n r D.cat = .ok (D.answer v) ∨
    get k (crashed noFiles ws i torn) v n r D.cat = .ok ((D.answer u).round rnd) ∨
    ∃ e, get k (crashed noFiles ws i torn) v n r D.cat = .error e := by
  obtain ⟨f', h1, hs⟩ := dump_stored k rnd noFiles rfl u n r hn D hD
  have hf' : f' = ws.foldl write noFiles := by
    unfold dump getBase at h1
    simp only [noFiles, Option.isSome_none, Bool.false_eq_true, if_false, bind, Except.bind, hws, pure, Except.pure] at h1
    injection h1 with h1
    exact h1.symm
  have hfull : get k f' v n r D.cat = .ok ((D.answer u).round rnd) :=
    get_stored k f' rnd u v hl n r hn hr D hD hs D.cat
  have h0 : D.d.length ≠ 0 := by have := hD.d.1; omega
  have hfd : (f' .d).isSome := by rw [hs.d]; rfl
  simp only [dumped, Data.cat, Nd.shape0, bind, Except.bind, ne_eq, h0, not_false_eq_true, if_true, savetxt, Nd.times,
    Nd.map, Nd.flatRows, pure, Except.pure, Except.ok.injEq] at hws
  have hc7 : ∀ t, crashed noFiles ws 7 (some t) = write f' (.centers, t) := by
    intro t
    rw [hf', ← hws]
    simp only [crashed, write, List.foldl_cons, List.foldl_nil, List.take_succ_cons, List.take_zero,
      List.getElem?_cons_succ, List.getElem?_cons_zero, Function.update_idem]
  have hc8 : ∀ i, crashed noFiles ws (i + 8) torn = f' := by
    intro i
    rw [hf', ← hws]
    cases torn <;> simp [crashed]
  subst hws
  have fresh : ∀ g : Files, g .d = none → get k g v n r D.cat = .ok (D.answer v) :=
    fun g hg => C60_fresh_partial k g hg v n r D hD
  match i with
  | 0 =>
    cases torn with
    | none => left; exact fresh _ (by simp [crashed, noFiles])
    | some t => right; right; exact get_missing k _ v n r _ (by simp [crashed, write]) .q (by simp [crashed, write, noFiles])
  | 1 =>
    right; right
    cases torn with
    | none => exact get_missing k _ v n r _ (by simp [crashed, write]) .q (by simp [crashed, write, noFiles])
    | some t => exact get_missing k _ v n r _ (by simp [crashed, write]) .s (by simp [crashed, write, noFiles])
  | 2 =>
    right; right
    cases torn with
    | none => exact get_missing k _ v n r _ (by simp [crashed, write]) .s (by simp [crashed, write, noFiles])
    | some t => exact get_missing k _ v n r _ (by simp [crashed, write]) .minor (by simp [crashed, write, noFiles])
  | 3 =>
    right; right
    cases torn with
    | none => exact get_missing k _ v n r _ (by simp [crashed, write]) .minor (by simp [crashed, write, noFiles])
    | some t => exact get_missing k _ v n r _ (by simp [crashed, write]) .inter (by simp [crashed, write, noFiles])
  | 4 =>
    right; right
    cases torn with
    | none => exact get_missing k _ v n r _ (by simp [crashed, write]) .inter (by simp [crashed, write, noFiles])
    | some t => exact get_missing k _ v n r _ (by simp [crashed, write]) .major (by simp [crashed, write, noFiles])
  | 5 =>
    right; right
    cases torn with
    | none => exact get_missing k _ v n r _ (by simp [crashed, write]) .major (by simp [crashed, write, noFiles])
    | some t => exact get_missing k _ v n r _ (by simp [crashed, write]) .m (by simp [crashed, write, noFiles])
  | 6 =>
    right; right
    cases torn with
    | none => exact get_missing k _ v n r _ (by simp [crashed, write]) .m (by simp [crashed, write, noFiles])
    | some t => exact get_missing k _ v n r _ (by simp [crashed, write]) .centers (by simp [crashed, write, noFiles])
  | 7 =>
    right
    cases torn with
    | none =>
      right
      exact get_missing k _ v n r _ (by simp [crashed, write]) .centers (by simp [crashed, write, noFiles])
    | some t =>
      have := get_centers k f' v n r D.cat hfd t _ hfull
      rw [hc7]
      exact this
  | i + 8 =>
    right; left
    rw [hc8]
    exact hfull

/-- A dump over a complete catalogue writes what is there already, whatever the units. -/
theorem redump_same (k : Kind) (rnd : ℝ → ℝ) (hrnd : ∀ x, rnd (rnd x) = rnd x) (f : Files) (u v : Out) (hl : v.l ≠ 0)
    (hm : v.m ≠ 0) (n r : Nat) (hn : 1 ≤ n) (hr : k.Radii r) (D : Data) (hD : D.Good n r) (hs : Holds f rnd u D)
    (other c : Cat) (hc : getBase k f v other = .ok c) (ws : List (Name × Text)) (hws : dumped rnd v c = .ok ws) :
    ∀ w ∈ ws, f w.1 = some w.2 := by
  have hb : getBase k f v other = .ok (D.loaded rnd u v).cat := by
    unfold getBase
    rw [hs.d]
    exact load_stored k f rnd u v n r hn hr D hD hs
  rw [hb] at hc
  injection hc with hc
  subst hc
  have h0 : (D.loaded rnd u v).d.length ≠ 0 := by have := (hD.loaded rnd u v).d.1; omega
  have back : ∀ (a b : ℝ), b ≠ 0 → ∀ x : V,
      (((((x.map (· * a)).map rnd).map (· / b)).map (· * b)).map rnd) = (x.map (· * a)).map rnd := by
    intro a b hb x
    cases x with
    | none => rfl
    | some y => simp [div_mul_cancel₀ _ hb, hrnd]
  have idem : ∀ x : V, (x.map rnd).map rnd = x.map rnd := by
    intro x
    cases x with
    | none => rfl
    | some y => simp [hrnd]
  have idemc : ∀ l : List V, (l.map (Option.map rnd)).map (Option.map rnd) = l.map (Option.map rnd) := by
    intro l
    rw [List.map_map]
    exact List.map_congr_left fun x _ => idem x
  simp only [dumped, Data.cat, Nd.shape0, bind, Except.bind, ne_eq, h0, not_false_eq_true, if_true, savetxt, Nd.times,
    Nd.map, Nd.flatRows, pure, Except.pure, Except.ok.injEq] at hws
  subst hws
  intro w hw
  simp only [List.mem_cons, List.not_mem_nil, or_false] at hw
  rcases hw with rfl | rfl | rfl | rfl | rfl | rfl | rfl | rfl
  · rw [hs.d]
    simp only [Data.loaded, List.map_map, Function.comp_def, back _ _ hl]
  · rw [hs.q]
    simp only [Data.loaded, List.map_map, Function.comp_def, idem]
  · rw [hs.s]
    simp only [Data.loaded, List.map_map, Function.comp_def, idem]
  · rw [hs.minor, map_flatten_map]
    simp only [Data.loaded, List.map_map, Function.comp_def, List.map_flatten, idem]
  · rw [hs.inter, map_flatten_map]
    simp only [Data.loaded, List.map_map, Function.comp_def, List.map_flatten, idem]
  · rw [hs.major, map_flatten_map]
    simp only [Data.loaded, List.map_map, Function.comp_def, List.map_flatten, idem]
  · rw [hs.m]
    simp only [Data.loaded, List.map_map, Function.comp_def, back _ _ hm]
  · rw [hs.centers]
    simp only [Data.loaded, List.map_map, Function.comp_def, back _ _ hl]

theorem foldl_write_same (f : Files) (ws : List (Name × Text)) (h : ∀ w ∈ ws, f w.1 = some w.2) : ws.foldl write f = f := by
  induction ws with
  | nil => rfl
  | cons w ws ih =>
    have : write f w = f := by
      unfold write
      rw [← h w List.mem_cons_self]
      exact Function.update_eq_self _ _
    rw [List.foldl_cons, this]
    exact ih fun x hx => h x (List.mem_cons_of_mem _ hx)

/-- C62. If each file is replaced as a whole, a dump over a complete catalogue may die after any number of
files, in any units: the complete catalogue is returned afterwards.  Missing: files which are partly written,
`C62_refuted`. -/
theorem C62_whole_files_partial (k : Kind) (rnd : ℝ → ℝ) (hrnd : ∀ x, rnd (rnd x) = rnd x) (f : Files) (u v w : Out)
    (hl : v.l ≠ 0) (hm : v.m ≠ 0) (hw : w.l ≠ 0) (n r : Nat) (hn : 1 ≤ n) (hr : k.Radii r) (D : Data) (hD : D.Good n r)
    (hs : Holds f rnd u D) (other c : Cat) (hc : getBase k f v other = .ok c) (ws : List (Name × Text))
    (hws : dumped rnd v c = .ok ws) (i : Nat) :
    get k (crashed f ws i none) w n r other = .ok ((D.answer u).round rnd) := by
  have h1 := redump_same k rnd hrnd f u v hl hm n r hn hr D hD hs other c hc ws hws
  have h2 : crashed f ws i none = f := by
    unfold crashed
    have : (ws.take i).foldl write f = f := foldl_write_same f _ fun x hx => h1 x (List.mem_of_mem_take hx)
    cases ws[i]? <;> exact this
  rw [h2]
  exact get_stored k f rnd u w hw n r hn hr D hD hs other

/-- Two objects, of different shape. -/
noncomputable def pair : Data where
  d := [[some 1, some 2], [some 1, some 2]]
  q := [[some 1, some 1], [some (1/2), some (1/2)]]
  s := [[some (1/2), some (1/2)], [some (1/2), some (1/2)]]
  minor := [[[some 1, some 0, some 0], [some 1, some 0, some 0]], [[some 1, some 0, some 0], [some 1, some 0, some 0]]]
  inter := [[[some 0, some 1, some 0], [some 0, some 1, some 0]], [[some 0, some 1, some 0], [some 0, some 1, some 0]]]
  major := [[[some 0, some 0, some 1], [some 0, some 0, some 1]], [[some 0, some 0, some 1], [some 0, some 0, some 1]]]
  masses := [some 1, some 1]
  centers := [[some 0, some 0, some 0], [some 1, some 1, some 1]]

theorem pair_good : pair.Good 2 2 := by constructor <;> simp [pair, IsTable]

/-- C62 is false: a dump over a complete catalogue of two objects dies after the first line of the second
file.  The later request returns the ratio `q` of the first object for both: neither recomputed, nor an error,
nor the complete catalogue. -/
theorem C62_refuted : ¬ ∀ (k : Kind) (f : Files) (u : Out) (n r : Nat) (D : Data) (c : Cat) (ws : List (Name × Text))
    (i : Nat) (t : Text), 1 ≤ n → k.Radii r → u.l ≠ 0 → D.Good n r → Holds f id u D → getBase k f u D.cat = .ok c →
      dumped id u c = .ok ws → (∃ w, ws[i]? = some w ∧ t <+: w.2) →
      get k (crashed f ws i (some t)) u n r D.cat = .ok (D.answer u) ∨
      get k (crashed f ws i (some t)) u n r D.cat = .ok ((D.answer u).round id) ∨
      ∃ e, get k (crashed f ws i (some t)) u n r D.cat = .error e := by
  intro h
  obtain ⟨f, -, hs⟩ := dump_stored .loc id noFiles rfl ⟨1, 1⟩ 2 2 (by norm_num) pair pair_good
  have hb : getBase .loc f ⟨1, 1⟩ pair.cat = .ok (pair.loaded id ⟨1, 1⟩ ⟨1, 1⟩).cat := by
    unfold getBase
    rw [hs.d]
    exact load_stored .loc f id ⟨1, 1⟩ ⟨1, 1⟩ 2 2 (by norm_num) (by simp [Kind.Radii]) pair pair_good hs
  obtain ⟨ws, hws⟩ : ∃ ws, dumped id ⟨1, 1⟩ (pair.loaded id ⟨1, 1⟩ ⟨1, 1⟩).cat = .ok ws := by
    simp only [dumped, Data.cat, Nd.shape0, bind, Except.bind, savetxt, Nd.times, Nd.map, pure, Except.pure, Nd.flatRows,
      Data.loaded, pair, List.map_cons, List.length_cons, ne_eq, Nat.succ_ne_zero, not_false_eq_true, if_true, List.map_nil]
    exact ⟨_, rfl⟩
  have hsame := redump_same .loc id (fun _ => rfl) f ⟨1, 1⟩ ⟨1, 1⟩ (by norm_num) (by norm_num) 2 2 (by norm_num)
    (by simp [Kind.Radii]) pair pair_good hs pair.cat _ hb ws hws
  -- the second file
  obtain ⟨w0, w1, rest, hwse, hw1⟩ : ∃ w0 w1 rest, ws = w0 :: w1 :: rest ∧
      w1 = (.q, [[some 1, some 1], [some (1/2), some (1/2)]]) := by
    simp only [dumped, Data.cat, Nd.shape0, bind, Except.bind, savetxt, Nd.times, Nd.map, pure, Except.pure, Nd.flatRows,
      Data.loaded, pair, List.map_cons, List.length_cons, ne_eq, Nat.succ_ne_zero, not_false_eq_true, if_true,
      List.map_nil, Except.ok.injEq, Option.map_some, id] at hws
    exact ⟨_, _, _, hws.symm, rfl⟩
  have hcr : crashed f ws 1 (some [[some 1, some 1]]) = write f (.q, [[some 1, some 1]]) := by
    unfold crashed
    rw [hwse]
    have h0 : write f w0 = f := by
      unfold write
      rw [← hsame w0 (by rw [hwse]; simp)]
      exact Function.update_eq_self _ _
    simp only [List.getElem?_cons_succ, List.getElem?_cons_zero, List.take_succ_cons, List.take_zero, List.foldl_cons,
      List.foldl_nil, h0, hw1]
  have h2 := h .loc f ⟨1, 1⟩ 2 2 pair _ ws 1 [[some 1, some 1]] (by norm_num) (by simp [Kind.Radii]) (by norm_num)
    pair_good hs hb hws ⟨w1, by rw [hwse]; rfl, by rw [hw1]; exact ⟨[[some (1/2), some (1/2)]], rfl⟩⟩
  rw [hcr] at h2
  set g := write f (.q, [[some 1, some 1]]) with hg
  have hsm : ∀ x, x ≠ Name.q → g x = f x := by
    intro x hx
    simp [hg, write, hx]
  have hq : g .q = some [[some 1, some 1]] := by simp [hg, write]
  have two : (2 : Nat) ≤ 2 := le_rfl
  have e1 : load g .d = .ok (.d2 [[some 1, some 2], [some 1, some 2]]) := by
    rw [load_congr (hsm .d (by decide)), load_some hs.d]
    simp [pair, loadtxt]
  have e2 : load g .q = .ok (.d1 [some 1, some 1]) := by
    rw [load_some hq]
    simp [loadtxt]
  have e3 : load g .s = .ok (.d2 [[some (1/2), some (1/2)], [some (1/2), some (1/2)]]) := by
    rw [load_congr (hsm .s (by decide)), load_some hs.s]
    simp [pair, loadtxt]
  have e4 : load g .minor = .ok (.d2 [[some 1, some 0, some 0, some 1, some 0, some 0],
      [some 1, some 0, some 0, some 1, some 0, some 0]]) := by
    rw [load_congr (hsm .minor (by decide)), load_some hs.minor]
    simp [pair, loadtxt]
  have e5 : load g .inter = .ok (.d2 [[some 0, some 1, some 0, some 0, some 1, some 0],
      [some 0, some 1, some 0, some 0, some 1, some 0]]) := by
    rw [load_congr (hsm .inter (by decide)), load_some hs.inter]
    simp [pair, loadtxt]
  have e6 : load g .major = .ok (.d2 [[some 0, some 0, some 1, some 0, some 0, some 1],
      [some 0, some 0, some 1, some 0, some 0, some 1]]) := by
    rw [load_congr (hsm .major (by decide)), load_some hs.major]
    simp [pair, loadtxt]
  have e7 : load g .m = .ok (.d1 [some 1, some 1]) := by
    rw [load_congr (hsm .m (by decide)), load_some hs.m]
    simp [pair, loadtxt]
  have e8 : load g .centers = .ok (.d2 [[some 0, some 0, some 0], [some 1, some 1, some 1]]) := by
    rw [load_congr (hsm .centers (by decide)), load_some hs.centers]
    simp [pair, loadtxt]
  have hgd : (g .d).isSome := by rw [hsm .d (by decide), hs.d]; rfl
  have hres : ∃ S : Shapes, get .loc g ⟨1, 1⟩ 2 2 pair.cat = .ok S ∧ S.q = [[some 1, some 1], [some 1, some 1]] := by
    unfold get getBase
    rw [if_pos hgd]
    simp only [loadCat, loadLocal, loadAll, bind, Except.bind, pure, Except.pure, e1, e2, e3, e4, e5, e6, e7, e8, Nd.over,
      Nd.map, Nd.shape0, List.map_cons, List.map_nil, List.length_cons, ne_eq, Nat.succ_ne_zero, not_false_eq_true,
      if_true, triples, Nd.reshapeTriples, Nd.flat, List.flatten_cons, List.flatten_nil, List.append_nil,
      List.length_append, List.length_nil, Nd.times]
    refine ⟨_, rfl, rfl⟩
  obtain ⟨S, hS, hSq⟩ := hres
  rw [hS] at h2
  have bad : ∀ T : Shapes, T.q = [[some 1, some 1], [some (1/2), some (1/2)]] → S ≠ T := by
    rintro T hT rfl
    rw [hSq] at hT
    norm_num at hT
  rcases h2 with h2 | h2 | ⟨e, h2⟩
  · injection h2 with h2
    exact bad _ rfl h2
  · injection h2 with h2
    exact bad _ rfl h2
  · cases h2

/-! ## Examples -/

/-- The hypotheses of the theorems hold for two different objects at two radii (`sample`, `pair`). -/
example : ∃ f', dump .loc id noFiles ⟨1000, 1⟩ pair.cat = .ok f' ∧
    get .loc f' ⟨1000, 1⟩ 2 2 pair.cat = .ok ((pair.answer ⟨1000, 1⟩).round id) :=
  C60_after_dump_partial .loc id noFiles rfl ⟨1000, 1⟩ (by norm_num) 2 2 (by norm_num) (by simp [Kind.Radii]) pair pair_good

/-- One object at one radius, for global shapes. -/
example : ∃ D : Data, D.Good 1 1 ∧ Kind.glob.Radii 1 ∧ (D.answer ⟨1000, 1⟩).d = [[some 2000]] := by
  refine ⟨⟨[[some 2]], [[some 1]], [[some 1]], [[[some 1, some 0, some 0]]], [[[some 0, some 1, some 0]]],
    [[[some 0, some 0, some 1]]], [some 1], [[some 0, some 0, some 0]]⟩, ?_, rfl, ?_⟩
  · constructor <;> simp [IsTable]
  · norm_num [Data.answer]

end Verif.Stored
