import Verif.NpCache.Lemmas
import Verif.Cache.Props

/-! # Properties of the array cache (C08, C09) -/

namespace Verif.NpCache

/-- **C08** Every documented argument list is accepted, and the user function receives arguments
with the same shapes and entries. -/
theorem C08_arguments_survive (nbA nbL : Nat) (args : List Val) (h : Documented nbA nbL args) :
    ∃ fr ds args', freeze nbA nbL args = .ok (fr, ds) ∧ thaw nbA nbL fr ds = .ok args' ∧
      List.Forall₂ SameValue args args' :=
  freeze_thaw nbA nbL args h

/-- A 2x3 array, a list of lists and a plain argument. -/
example : Documented 1 1 [.arr .float64 [2, 3] (fun i j => .fin (i.1 * 3 + j.1)),
    .lists [[⟨.pyint, .fin 1⟩], []], .str "mode"] := by
  refine ⟨by simp, fun i h => ?_⟩
  have : i = 0 ∨ i = 1 ∨ i = 2 := by simp at h; omega
  rcases this with rfl | rfl | rfl
  · exact ⟨fun _ => ⟨_, _, _, rfl⟩, by simp, by simp⟩
  · simp
  · simp

/-- **C09** (part) Two different calls have equal cache keys exactly if their arguments agree:
arrays in shape and all entries (as numbers), lists of lists entry by entry, plain arguments.
Missing for the full property: the dtype is not part of the key, see
`C09_dtype_confused_refuted`. -/
theorem C09_key_faithful_partial (nbA nbL : Nat) (args1 args2 : List Val) (c1 c2 : Nat) (hc : c1 ≠ c2)
    (fr1 fr2 : List Frozen) (ds1 ds2 : List (List Nat))
    (h1 : freeze nbA nbL args1 = .ok (fr1, ds1)) (h2 : freeze nbA nbL args2 = .ok (fr2, ds2)) :
    makeKey c1 fr1 ds1 = makeKey c2 fr2 ds2 ↔ List.Forall₂ (Agree NumEq) args1 args2 := by
  rw [makeKey_eq_iff]
  exact freeze_agree NumEq c1 c2 (keyNum_ne hc) nbA nbL args1 args2 fr1 fr2 ds1 ds2 h1 h2

/-- The same six numbers as a 2x3 and as a 3x2 array have different keys. -/
example : ¬ List.Forall₂ (Agree NumEq) [.arr .float64 [2, 3] (fun i j => .fin (i.1 * 3 + j.1))]
    [.arr .float64 [3, 2] (fun i j => .fin (i.1 * 2 + j.1))] := by
  simp [Agree]

/-- A call of an array-cached function: which call it is, and the (documented) arguments. -/
abbrev NpCall (nbA nbL : Nat) := { x : Nat × List Val // Documented nbA nbL x.2 }

/-- The cache key of a call (caching.py:297 and 26-50). -/
def npKey (nbA nbL : Nat) (x : NpCall nbA nbL) : List KeyItem :=
  match freeze nbA nbL x.1.2 with
  | .ok (fr, ds) => makeKey x.1.1 fr ds
  | .error _ => []

/-- What evaluating the user function `f` in the cached wrapper yields (caching.py:271-281). -/
def npEval {V E : Type} (f : List Val → V) (exc : Err → E) (nbA nbL : Nat) (args : List Val) :
    Except E V :=
  match freeze nbA nbL args with
  | .error e => .error (exc e)
  | .ok (fr, ds) =>
    match thaw nbA nbL fr ds with
    | .error e => .error (exc e)
    | .ok args' => .ok (f args')

theorem NumLike.refl (x : Num) : NumLike x x := by
  cases x <;> simp [NumLike, NumEq]

theorem NdRel.refl : ∀ (s : List Nat) (a : Nd Num s), NdRel NumLike s a a
  | [], a => NumLike.refl a
  | _ :: s, a => fun i => NdRel.refl s (a i)

theorem SameValue.agree {v w : Val} (h : SameValue v w) : Agree NumLike v w := by
  cases v <;> cases w <;> simp only [SameValue] at h <;> try exact h.elim
  · obtain ⟨h1, -⟩ := h
    cases h1
    exact ⟨rfl, NdRel.refl _ _⟩
  · subst h
    exact List.forall₂_same.2 fun x _ => List.forall₂_same.2 fun y _ => NumLike.refl _
  · subst h; exact NumLike.refl _
  · exact h.symm
  · trivial

/-- **C09** (part) An array-cached function that depends only on the shapes and numerical values of
its arguments is cached transparently: in every history every call returns the value of the
function for the caller's own arguments.  Missing: functions which look at the dtype. -/
theorem C09_transparent_partial {V E : Type} (m : Cache.Mode) (nbA nbL : Nat) (f : List Val → V)
    (exc : Err → E) (hf : ∀ args args', List.Forall₂ (Agree NumLike) args args' → f args = f args')
    (calls : List (NpCall nbA nbL × Nat)) :
    List.Forall₂ (fun x r => ∃ evaluated, r.1 = some (.ok (f x.1.1.2) evaluated)) calls
      (Cache.run m (npKey nbA nbL) Cache.State.init
        (calls.map fun x => Cache.Op.call x.1 (npEval f exc nbA nbL x.1.1.2) x.2)).2 := by
  have heval : ∀ x : NpCall nbA nbL, npEval f exc nbA nbL x.1.2 = .ok (f x.1.2) := by
    intro x
    obtain ⟨fr, ds, args', h1, h2, h3⟩ := C08_arguments_survive nbA nbL x.1.2 x.2
    simp only [npEval, h1, h2]
    rw [hf _ _ (h3.imp fun _ _ h => h.agree)]
  have hkey : ∀ x y : NpCall nbA nbL, npKey nbA nbL x = npKey nbA nbL y → f x.1.2 = f y.1.2 := by
    intro x y hxy
    obtain ⟨fr1, ds1, _, h1, -, -⟩ := C08_arguments_survive nbA nbL x.1.2 x.2
    obtain ⟨fr2, ds2, _, h2, -, -⟩ := C08_arguments_survive nbA nbL y.1.2 y.2
    simp only [npKey, h1, h2] at hxy
    apply hf
    rw [makeKey_eq_iff] at hxy
    have := (freeze_agree (fun a b => keyNum x.1.1 ⟨.float64, a⟩ = keyNum y.1.1 ⟨.float64, b⟩) x.1.1 y.1.1
      (fun a b => Iff.rfl) nbA nbL _ _ fr1 fr2 ds1 ds2 h1 h2).1 hxy
    refine this.imp ?_
    have hnd : ∀ (s : List Nat) (a b : Nd Num s),
        NdRel (fun a b => keyNum x.1.1 ⟨.float64, a⟩ = keyNum y.1.1 ⟨.float64, b⟩) s a b →
        NdRel NumLike s a b := by
      intro s
      induction s with
      | nil => intro a b h; exact keyNum_like ⟨.float64, a⟩ ⟨.float64, b⟩ h
      | cons n s ih => intro a b h i; exact ih _ _ (h i)
    intro v w hvw
    cases v <;> cases w <;> simp only [Agree] at hvw ⊢ <;> try exact hvw
    · obtain ⟨rfl, h⟩ := hvw
      exact ⟨rfl, hnd _ _ _ h⟩
    · exact hvw.imp fun _ _ h => h.imp fun a b h => keyNum_like ⟨.float64, _⟩ ⟨.float64, _⟩ h
    · exact keyNum_like ⟨.float64, _⟩ ⟨.float64, _⟩ hvw
  have := Cache.C01_cache_transparent (E := E) m (npKey nbA nbL) (fun x => f x.1.2) hkey
    (calls.map fun x => Cache.Op.call x.1 (npEval f exc nbA nbL x.1.1.2) x.2) (by
      intro a o n h
      simp only [List.mem_map, Cache.Op.call.injEq] at h
      obtain ⟨x, -, rfl, rfl, rfl⟩ := h
      exact Or.inl (heval _))
  rw [List.forall₂_map_left_iff] at this
  refine this.imp ?_
  rintro ⟨x, n⟩ ⟨r, i⟩ h
  simp only [heval] at h ⊢
  revert h
  cases r with
  | none => simp [Cache.Transparent]
  | some o => cases o <;> simp [Cache.Transparent]

/-- **C09 refuted** (dtype) An integer and a floating-point array with the same numbers share a cache
entry: a history in which a function that depends on the dtype returns the other array's result. -/
theorem C09_dtype_confused_refuted : ∃ (f : List Val → DType) (a b : NpCall 1 0),
    f a.1.2 = .int64 ∧ f b.1.2 = .float64 ∧ a.1.1 ≠ b.1.1 ∧
    (Cache.run (E := Err) .unbounded (npKey 1 0) Cache.State.init
      [.call a (npEval f id 1 0 a.1.2) 0, .call b (npEval f id 1 0 b.1.2) 0]).2.map Prod.fst =
      [some (.ok .int64 true), some (.ok .int64 false)] := by
  have hd : ∀ d, Documented 1 0 [.arr d [2] (fun i => .fin i.1)] := by
    intro d
    refine ⟨by simp, fun i h => ?_⟩
    have : i = 0 := by simpa using h
    subst this; exact ⟨fun _ => ⟨_, _, _, rfl⟩, by simp, by simp⟩
  refine ⟨fun args => match args with | .arr d _ _ :: _ => d | _ => .pyint,
    ⟨(0, [.arr .int64 [2] (fun i => .fin i.1)]), hd _⟩,
    ⟨(1, [.arr .float64 [2] (fun i => .fin i.1)]), hd _⟩, rfl, rfl, by simp, ?_⟩
  rfl

/-- An empty integer array arrives as an empty float64 array: why C08 speaks of non-empty arrays. -/
example : (freeze 1 0 [.arr .int64 [0] (fun i => i.elim0)]).bind (fun r =>
    (thaw 1 0 r.1 r.2).map fun vs => vs.map fun v => match v with | .arr d s _ => (d, s) | _ => (.pyint, []))
    = .ok [(.float64, [0])] := rfl

end Verif.NpCache
