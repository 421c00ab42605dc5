import Verif.Mock.ShellLaw

/-!
# Seeds of the random generator (C175)

`np.random.seed(ell_nb)` and `np.random.seed(shell_nb)`, cosmic_profiles/common/python_routines.py:373 and 459: before points are drawn, the
global generator of numpy is set to a state which depends on the number of the ellipsoid or shell only.  mock_halo_gen.py:104-105 draws
the shells in worker processes, each with a global generator of its own.
-/

namespace Verif.Mock

/-! ## Model -/

/-- numpy's global generator with states `S`: `np.random.seed`, and what the next normal and the next uniform number are.  Any generator. -/
structure Generator (S : Type) where
  seed : ℕ → S
  normal : S → ℝ × S
  uniform : S → ℝ × S

variable {S : Type}

/-- `np.random.normal(0,1,dims)`, python_routines.py:375 and 461. -/
def normalsFrom (G : Generator S) : ℕ → S → List ℝ × S
  | 0, st => ([], st)
  | d + 1, st =>
    let x := G.normal st
    let xs := normalsFrom G d x.2
    (x.1 :: xs.1, xs.2)

/-- The loop of python_routines.py:374-377 and 460-463: what is drawn for each point. -/
def pointsFrom (G : Generator S) (dims : ℕ) : ℕ → S → List Normal × S
  | 0, st => ([], st)
  | n + 1, st =>
    let g := normalsFrom G dims st
    let w := G.uniform g.2
    let r := pointsFrom G dims n w.2
    (⟨g.1, w.1⟩ :: r.1, r.2)

/-- `np.random.uniform(lo, hi, size = n)`, python_routines.py:488. -/
noncomputable def uniformsFrom (G : Generator S) (lo hi : ℝ) : ℕ → S → List ℝ × S
  | 0, st => ([], st)
  | n + 1, st =>
    let w := G.uniform st
    let r := uniformsFrom G lo hi n w.2
    ((lo + (hi - lo) * w.1) :: r.1, r.2)

/-- What is read if there are fewer draws than points, which does not happen. -/
def noDraw : Normal := ⟨[], 0⟩

/-- `drawUniformFromEllipsoid(dims, a, b, c, Nptc, ell_nb)` in a process whose generator is in the state `st`: the points (`none` for an exception) and
the state afterwards, python_routines.py:367-390.  Exceptions of the first lines come before the seed is set. -/
noncomputable def ellipsoidRun (G : Generator S) (dims : ℕ) (a b : List ℝ) (c : CArg) (N : List ℤ) (k : ℕ) (st : S) :
    Option (List (List ℝ)) × S :=
  match a[k]?, b[k]?, c.bind (·[k]?), N[k]? with
  | some _, some _, some _, some n =>
    if n < 0 then (none, st)
    else
      let d := pointsFrom G dims n.toNat (G.seed k)
      (drawEllipsoid dims a b c N k fun i => d.1.getD i noDraw, d.2)
  | _, _, _, _ => (none, st)

/-- `drawUniformFromShell(dims, a, b, c, Nptc, shell_nb)` in a process whose generator is in the state `st`, python_routines.py:446-497.  Simplified:
all exceptions after the seed is set are taken to happen before line 488, where `rand` is drawn (they all do, except for `None` in `c` for
another shell, which is not an exception in the code). -/
noncomputable def shellRun (G : Generator S) (dims : ℕ) (a b : List ℝ) (c : CArg) (N : List ℤ) (k : ℕ) (st : S) :
    Option (List (List ℝ)) × S :=
  match a[k]?, c.bind (·[k]?), N[k]? with
  | some _, some _, some n =>
    if n < 0 ∨ b.length ≠ a.length ∨ (c.map List.length) ≠ some a.length then (none, st)
    else
      let d := pointsFrom G dims n.toNat (G.seed k)
      let r := uniformsFrom G ((k : ℝ) / a.length) ((k + 1 : ℝ) / a.length) n.toNat d.2
      match drawShell dims a b c N k (fun i => d.1.getD i noDraw) fun i => r.1.getD i 0 with
      | none => (none, d.2)
      | some pts => (some pts, r.2)
  | _, _, _ => (none, st)

/-- The particles of a halo, shell by shell, mock_halo_gen.py:104-105: shell `k` is drawn in a worker process whose generator is in the state
`workers k`, which depends on the number of processes and on what they did before. -/
noncomputable def haloRun (G : Generator S) (s : Axes) (N : List ℤ) (workers : ℕ → S) : List (Option (List (List ℝ))) :=
  (List.range N.length).map fun k => (shellRun G 3 s.a s.b (some (s.c.map some)) N k (workers k)).1

/-! ## Specification -/

/-- Uniform numbers are between 0 and 1, and neither they nor normal numbers are exactly zero. -/
def Generator.Proper (G : Generator S) : Prop :=
  ∀ st, 0 < (G.uniform st).1 ∧ (G.uniform st).1 < 1 ∧ (G.normal st).1 ≠ 0

/-! ## Proofs -/

theorem pointsFrom_length (G : Generator S) (dims n : ℕ) (st : S) : (pointsFrom G dims n st).1.length = n := by
  induction n generalizing st with
  | zero => rfl
  | succ n ih => simp [pointsFrom, ih]

theorem uniformsFrom_length (G : Generator S) (lo hi : ℝ) (n : ℕ) (st : S) : (uniformsFrom G lo hi n st).1.length = n := by
  induction n generalizing st with
  | zero => rfl
  | succ n ih => simp [uniformsFrom, ih]

/-- The draws for the first points do not depend on how many points follow. -/
theorem pointsFrom_prefix (G : Generator S) (dims n m i : ℕ) (hn : i < n) (hm : i < m) (st : S) :
    (pointsFrom G dims n st).1.getD i noDraw = (pointsFrom G dims m st).1.getD i noDraw := by
  induction i generalizing n m st with
  | zero =>
    obtain ⟨n, rfl⟩ := Nat.exists_eq_succ_of_ne_zero (by omega : n ≠ 0)
    obtain ⟨m, rfl⟩ := Nat.exists_eq_succ_of_ne_zero (by omega : m ≠ 0)
    rfl
  | succ i ih =>
    obtain ⟨n, rfl⟩ := Nat.exists_eq_succ_of_ne_zero (by omega : n ≠ 0)
    obtain ⟨m, rfl⟩ := Nat.exists_eq_succ_of_ne_zero (by omega : m ≠ 0)
    exact ih n m (by omega) (by omega) _

theorem pointsFrom_three (G : Generator S) (hG : G.Proper) (n : ℕ) (st : S) (i : ℕ) (hi : i < n) :
    ∃ (g : ℝ × ℝ × ℝ) (w : ℝ), g ≠ 0 ∧ 0 < w ∧ (pointsFrom G 3 n st).1.getD i noDraw = ⟨[g.1, g.2.1, g.2.2], w⟩ := by
  induction i generalizing n st with
  | zero =>
    obtain ⟨n, rfl⟩ := Nat.exists_eq_succ_of_ne_zero (by omega : n ≠ 0)
    refine ⟨((G.normal st).1, (G.normal (G.normal st).2).1, (G.normal (G.normal (G.normal st).2).2).1), _, ?_,
      (hG (normalsFrom G 3 st).2).1, rfl⟩
    intro h
    exact (hG st).2.2 (congrArg Prod.fst h)
  | succ i ih =>
    obtain ⟨n, rfl⟩ := Nat.exists_eq_succ_of_ne_zero (by omega : n ≠ 0)
    exact ih n _ (by omega)

theorem uniformsFrom_getD (G : Generator S) (hG : G.Proper) (n i : ℕ) (hi : i < n) (st : S) :
    ∃ u, 0 < u ∧ u < 1 ∧ ∀ lo hi, (uniformsFrom G lo hi n st).1.getD i 0 = lo + (hi - lo) * u := by
  induction i generalizing n st with
  | zero =>
    obtain ⟨n, rfl⟩ := Nat.exists_eq_succ_of_ne_zero (by omega : n ≠ 0)
    exact ⟨_, (hG st).1, (hG st).2.1, fun _ _ => rfl⟩
  | succ i ih =>
    obtain ⟨n, rfl⟩ := Nat.exists_eq_succ_of_ne_zero (by omega : n ≠ 0)
    exact ih n (by omega) _

/-- C175 (proved part): points drawn from ellipsoids and shells, and the particles of halos, do not depend on the state of any generator: they
are reproduced by every call with the same arguments, for every number of worker processes. Missing: that a halo is a new realisation each time,
and that the generator of the caller is left alone, see the refutations. -/
theorem C175_reproducible_partial (G : Generator S) (dims : ℕ) (a b : List ℝ) (c : CArg) (N : List ℤ) (s : Axes) :
    (∀ k st st', (ellipsoidRun G dims a b c N k st).1 = (ellipsoidRun G dims a b c N k st').1) ∧
    (∀ k st st', (shellRun G dims a b c N k st).1 = (shellRun G dims a b c N k st').1) ∧
    ∀ workers workers' : ℕ → S, haloRun G s N workers = haloRun G s N workers' := by
  have hshell : ∀ (dims : ℕ) (a b : List ℝ) (c : CArg) (N : List ℤ) k st st',
      (shellRun G dims a b c N k st).1 = (shellRun G dims a b c N k st').1 := by
    intro dims a b c N k st st'
    unfold shellRun
    cases a[k]? <;> [rfl; skip]
    cases c.bind (·[k]?) <;> [rfl; skip]
    cases N[k]? <;> [rfl; skip]
    dsimp only
    split <;> rfl
  refine ⟨?_, hshell dims a b c N, ?_⟩
  · intro k st st'
    unfold ellipsoidRun
    cases a[k]? <;> [rfl; skip]
    cases b[k]? <;> [rfl; skip]
    cases c.bind (·[k]?) <;> [rfl; skip]
    cases N[k]? <;> [rfl; skip]
    dsimp only
    split <;> rfl
  · intro w w'
    unfold haloRun
    exact List.map_congr_left fun k _ => hshell 3 s.a s.b _ N k (w k) (w' k)

/-- C175 (refutation): whenever points are returned, the generator of the process is in a state afterwards which does not depend on its state
before, so that all random numbers drawn later by the caller are the same for every seed the caller has chosen. -/
theorem C175_state_refuted (G : Generator S) (dims : ℕ) (a b : List ℝ) (c : CArg) (N : List ℤ) (k : ℕ) (pts : List (List ℝ)) (st st' : S) :
    ((ellipsoidRun G dims a b c N k st).1 = some pts → (ellipsoidRun G dims a b c N k st).2 = (ellipsoidRun G dims a b c N k st').2) ∧
    ((shellRun G dims a b c N k st).1 = some pts → (shellRun G dims a b c N k st).2 = (shellRun G dims a b c N k st').2) := by
  constructor
  · unfold ellipsoidRun
    cases a[k]? <;> [simp; skip]
    cases b[k]? <;> [simp; skip]
    cases c.bind (·[k]?) <;> [simp; skip]
    cases N[k]? <;> [simp; skip]
    dsimp only
    split <;> simp
  · unfold shellRun
    cases a[k]? <;> [simp; skip]
    cases c.bind (·[k]?) <;> [simp; skip]
    cases N[k]? <;> [simp; skip]
    dsimp only
    split <;> simp

/-- A shell in three dimensions. -/
theorem shellRun_three (G : Generator S) (hG : G.Proper) (s : Axes) (n : ℕ) (hs : Shells s n) (N : List ℤ) (k m : ℕ) (hk : k < n)
    (hN : N[k]? = some (m : ℤ)) (st : S) :
    (shellRun G 3 s.a s.b (some (s.c.map some)) N k st).1 = some ((List.range m).map fun i =>
      let d := (pointsFrom G 3 m (G.seed k)).1.getD i noDraw
      let r := (uniformsFrom G ((k : ℝ) / n) ((k + 1 : ℝ) / n) m (pointsFrom G 3 m (G.seed k)).2).1.getD i 0
      let p := shellParticle s k (((d.g.getD 0 0, d.g.getD 1 0, d.g.getD 2 0), d.w), r)
      [p.1, p.2.1, p.2.2]) := by
  have hla := hs.la
  have hlb := hs.lb
  have hlc := hs.lc
  have hka : k < s.a.length := by omega
  have ha : s.a[k]? = some (s.a.getD k 0) := by
    rw [List.getD_eq_getElem _ _ hka, List.getElem?_eq_getElem hka]
  have hc : (some (s.c.map some)).bind (·[k]?) = some (some (s.c.getD k 0)) := by
    have hkc : k < s.c.length := by omega
    rw [Option.bind_some, List.getElem?_map, List.getElem?_eq_getElem hkc, List.getD_eq_getElem _ _ hkc]
    rfl
  have hthree := C168_shell_three s.a s.b s.c N k (s.a.getD k 0) m ha (by omega) (by omega) hN
  set d := pointsFrom G 3 m (G.seed k) with hd
  set r := uniformsFrom G ((k : ℝ) / n) ((k + 1 : ℝ) / n) m d.2 with hr
  have hext : ∀ (f f' : ℕ → Normal) (R : ℕ → ℝ), (∀ i, i < m → f i = f' i) →
      drawShell 3 s.a s.b (some (s.c.map some)) N k f R = drawShell 3 s.a s.b (some (s.c.map some)) N k f' R := by
    intro f f' R hff
    have : ((List.range m).mapM fun i => dotDiag (stretches (s.a.getD k 0) (s.a.getD k 0) (some (s.a.getD k 0))) (inBall 3 (f i))) =
        ((List.range m).mapM fun i => dotDiag (stretches (s.a.getD k 0) (s.a.getD k 0) (some (s.a.getD k 0))) (inBall 3 (f' i))) := by
      have : ∀ l : List ℕ, (∀ i ∈ l, i < m) →
          (l.mapM fun i => dotDiag (stretches (s.a.getD k 0) (s.a.getD k 0) (some (s.a.getD k 0))) (inBall 3 (f i))) =
          l.mapM fun i => dotDiag (stretches (s.a.getD k 0) (s.a.getD k 0) (some (s.a.getD k 0))) (inBall 3 (f' i)) := by
        intro l hl
        induction l with
        | nil => rfl
        | cons x l ih =>
          rw [List.mapM_cons, List.mapM_cons, hff x (hl x List.mem_cons_self), ih fun i hi => hl i (List.mem_cons_of_mem _ hi)]
      exact this _ fun i hi => List.mem_range.1 hi
    unfold drawShell
    rw [Option.bind_some] at hc
    simp only [ha, hN, hc, Option.bind_eq_bind, Option.bind_some, Option.map_some]
    split <;> [rfl; skip]
    rw [if_neg (by omega), if_neg (by omega), Int.toNat_natCast, this]
  have hrun : drawShell 3 s.a s.b (some (s.c.map some)) N k (fun i => d.1.getD i noDraw) (fun i => r.1.getD i 0) =
      some ((List.range m).map fun i =>
        let d := d.1.getD i noDraw
        let r := r.1.getD i 0
        let p := shellParticle s k (((d.g.getD 0 0, d.g.getD 1 0, d.g.getD 2 0), d.w), r)
        [p.1, p.2.1, p.2.2]) := by
    rw [hext _ (fun i => ⟨[(d.1.getD i noDraw).g.getD 0 0, (d.1.getD i noDraw).g.getD 1 0, (d.1.getD i noDraw).g.getD 2 0],
      (d.1.getD i noDraw).w⟩)]
    · exact hthree (fun i => ((d.1.getD i noDraw).g.getD 0 0, (d.1.getD i noDraw).g.getD 1 0, (d.1.getD i noDraw).g.getD 2 0))
        (fun i => (d.1.getD i noDraw).w) fun i => r.1.getD i 0
    · intro i hi
      obtain ⟨g, w, -, -, e⟩ := pointsFrom_three G hG m (G.seed k) i hi
      rw [hd, e]
      rfl
  unfold shellRun
  rw [ha, hc, hN]
  dsimp only
  rw [if_neg (by simp [hla, hlb, hlc]), Int.toNat_natCast, hla, ← hd, ← hr, hrun]

/-- C175 (refutation): different halos are made of the same random numbers. For any two halos (any semi-axes, any numbers of particles) the
`i`-th particles of their `k`-th shells lie in the same direction `u` before stretching; and if the numbers of particles in the shell
agree, also the same share `t` of the way between the two surfaces, so that one shell is the exact image of the other. -/
theorem C175_copies_refuted (G : Generator S) (hG : G.Proper) (s s' : Axes) (n n' : ℕ) (hs : Shells s n) (hs' : Shells s' n') (N N' : List ℤ)
    (k : ℕ) (hk : k < n) (hk' : k < n') (m m' : ℕ) (hN : N[k]? = some (m : ℤ)) (hN' : N'[k]? = some (m' : ℤ)) (st st' : S) :
    ∃ pts pts', (shellRun G 3 s.a s.b (some (s.c.map some)) N k st).1 = some pts ∧
      (shellRun G 3 s'.a s'.b (some (s'.c.map some)) N' k st').1 = some pts' ∧ pts.length = m ∧ pts'.length = m' ∧
      ∀ i, i < m → i < m' → ∃ (u : ℝ × ℝ × ℝ) (t t' : ℝ), distance u = 1 ∧ 0 < t ∧ t < 1 ∧ 0 < t' ∧ t' < 1 ∧ (m = m' → t = t') ∧
        pts[i]? = some [between s.a k t * u.1, between s.b k t * u.2.1, between s.c k t * u.2.2] ∧
        pts'[i]? = some [between s'.a k t' * u.1, between s'.b k t' * u.2.1, between s'.c k t' * u.2.2] := by
  refine ⟨_, _, shellRun_three G hG s n hs N k m hk hN st, shellRun_three G hG s' n' hs' N' k m' hk' hN' st', by simp, by simp, ?_⟩
  intro i hi hi'
  obtain ⟨g, w, hg, hw, e⟩ := pointsFrom_three G hG m (G.seed k) i hi
  have e' := e
  rw [pointsFrom_prefix G 3 m m' i hi hi'] at e'
  obtain ⟨t, ht0, ht1, hT⟩ := uniformsFrom_getD G hG m i hi (pointsFrom G 3 m (G.seed k)).2
  obtain ⟨t', ht0', ht1', hT'⟩ := uniformsFrom_getD G hG m' i hi' (pointsFrom G 3 m' (G.seed k)).2
  have hd := distance_pos hg
  have hone : distance (g.1 / distance g, g.2.1 / distance g, g.2.2 / distance g) = 1 := by
    have := distance_smul (distance g)⁻¹ (inv_pos.2 hd).le g
    rw [inv_mul_cancel₀ hd.ne'] at this
    rw [← this]
    simp only [div_eq_inv_mul]
  have hpart : ∀ (s : Axes) (n : ℕ) (_ : Shells s n) (_ : k < n) (t : ℝ), 0 < t → t < 1 →
      shellParticle s k ((g, w), (k : ℝ) / n + ((k + 1 : ℝ) / n - (k : ℝ) / n) * t) =
        onSurface (between s.a k t) (between s.b k t) (between s.c k t) g := by
    intro s n hs hk t h0 h1
    have hn : (0 : ℝ) < n := by exact_mod_cast (by omega : 0 < n)
    have e1 : (k : ℝ) / n + ((k + 1 : ℝ) / n - (k : ℝ) / n) * t = (k + t) / n := by field_simp; ring
    have e2 : (k + t) / n * n - k = t := by field_simp; ring
    rw [e1, shell_particle s n hs k hk g hg w hw _ (div_le_div_of_nonneg_right (by linarith) hn.le)
      (div_lt_div_of_pos_right (by linarith) hn), e2]
  refine ⟨_, t, t', hone, ht0, ht1, ht0', ht1', ?_, ?_, ?_⟩
  · rintro rfl
    have h1 := hT 0 1
    rw [hT' 0 1] at h1
    linarith
  · rw [List.getElem?_map, List.getElem?_range hi, Option.map_some]
    simp only [e, hT]
    rw [show ([g.1, g.2.1, g.2.2].getD 0 0, [g.1, g.2.1, g.2.2].getD 1 0, [g.1, g.2.1, g.2.2].getD 2 0) = g from rfl,
      hpart s n hs hk t ht0 ht1]
    rfl
  · rw [List.getElem?_map, List.getElem?_range hi', Option.map_some]
    simp only [e', hT']
    rw [show ([g.1, g.2.1, g.2.2].getD 0 0, [g.1, g.2.1, g.2.2].getD 1 0, [g.1, g.2.1, g.2.2].getD 2 0) = g from rfl,
      hpart s' n' hs' hk' t' ht0' ht1']
    rfl

/-! ## Examples -/

/-- A toy generator which counts: states are natural numbers. -/
noncomputable def counter : Generator ℕ where
  seed := fun k => 1000 * k
  normal := fun st => (st + 1, st + 1)
  uniform := fun st => (1 / (st + 2), st + 1)

theorem counter_proper : counter.Proper := by
  intro st
  refine ⟨by simp only [counter]; positivity, ?_, by simp only [counter]; positivity⟩
  simp only [counter]
  rw [div_lt_one (by positivity)]
  linarith [(Nat.cast_nonneg st : (0 : ℝ) ≤ st)]

/-- Two different halos with two shells each, and 3 and 5 particles in the second one. -/
example : ∃ pts pts', (shellRun counter 3 [1, 2] [1, 2] (some [some 1, some 2]) [7, 3] 1 99).1 = some pts ∧
    (shellRun counter 3 [4, 8] [2, 4] (some [some 1, some 2]) [0, 5] 1 5).1 = some pts' ∧ pts.length = 3 ∧ pts'.length = 5 := by
  have hs : Shells ⟨[1, 2], [1, 2], [1, 2]⟩ 2 := by constructor <;> simp
  obtain ⟨pts, pts', h1, h2, h3, h4, -⟩ := C175_copies_refuted counter counter_proper ⟨[1, 2], [1, 2], [1, 2]⟩ similarShells 2 2 hs
    similarShells_ok [7, 3] [0, 5] 1 (by norm_num) (by norm_num) 3 5 rfl rfl 99 5
  exact ⟨pts, pts', h1, h2, h3, h4⟩

/-- Whatever the state was, it is the same afterwards. -/
example (st st' : ℕ) : (shellRun counter 3 [1, 2] [1, 2] (some [some 1, some 2]) [7, 3] 1 st).2 =
    (shellRun counter 3 [1, 2] [1, 2] (some [some 1, some 2]) [7, 3] 1 st').2 := by
  have hs : Shells ⟨[1, 2], [1, 2], [1, 2]⟩ 2 := by constructor <;> simp
  exact (C175_state_refuted counter 3 [1, 2] [1, 2] (some [some 1, some 2]) [7, 3] 1 _ st st').2
    (shellRun_three counter counter_proper ⟨[1, 2], [1, 2], [1, 2]⟩ 2 hs [7, 3] 1 3 (by norm_num) rfl st)

end Verif.Mock
