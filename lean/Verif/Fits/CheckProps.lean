import Verif.Fits.Model
import Mathlib.Data.Rat.Floor
import Mathlib.Algebra.Order.Floor.Ring
import Mathlib.Tactic.NormNum

/-!
# Validation of settings (C49, C86)
-/

namespace Verif.Fits

/-! ## C49 -/

/-- The documented profile models and their parameters. -/
def documentedProfiles : List (String × List String) :=
  [("einasto", ["rho_s", "alpha", "r_s"]),
   ("alpha_beta_gamma", ["rho_s", "alpha", "beta", "gamma", "r_s"]),
   ("hernquist", ["rho_s", "r_s"]),
   ("nfw", ["rho_s", "r_s"])]

/-- The documented minimisation methods. -/
def documentedMethods : List String :=
  ["Nelder-Mead", "L-BFGS-B", "TNC", "SLSQP", "Powell", "trust-constr"]

theorem assert_ok (b : Bool) : assert b = .ok () ↔ b = true := by
  cases b <;> simp [assert]

theorem assert_error (b : Bool) (e : Err) (h : assert b = .error e) : e = .assertionError := by
  cases b
  · simp only [assert, Bool.false_eq_true, if_false] at h
    exact (Except.error.inj h).symm
  · simp [assert] at h

theorem bind_ok {α β : Type} (x : Except Err α) (f : α → Except Err β) (b : β) :
    x.bind f = .ok b ↔ ∃ a, x = .ok a ∧ f a = .ok b := by
  cases x <;> simp [Except.bind]

theorem bind_ok_unit {β : Type} (x : Except Err Unit) (f : Unit → Except Err β) (b : β) :
    x.bind f = .ok b ↔ x = .ok () ∧ f () = .ok b := by
  cases x <;> simp [Except.bind]

theorem eqStr_iff (d : Dict) (key text : String) : d.eqStr key text = true ↔ d.get key = some (.str text) := by
  unfold Dict.eqStr
  split
  · rename_i s h; rw [h]; simp
  · rename_i h
    constructor
    · intro h'; cases h'
    · intro h'; exact absurd h' (h text)

theorem keysIn_iff (d : Dict) (l : List String) : d.keysIn l = true ↔ ∀ kv ∈ d, kv.1 ∈ l := by
  unfold Dict.keysIn
  simp [List.all_eq_true]

/-- C49. A dictionary is accepted exactly if it names one of the documented profiles, contains nothing
but the profile, parameters of this profile and the minimisation method, and names a documented
minimisation method if any. -/
theorem C49_accepts_iff (d : Dict) :
    checkDensFitMethod (.dict d) = .ok () ↔
      ∃ name pars, (name, pars) ∈ documentedProfiles ∧ d.get "profile" = some (.str name) ∧
        (∀ kv ∈ d, kv.1 = "profile" ∨ kv.1 = "min_method" ∨ kv.1 ∈ pars) ∧
        (∀ v, d.get "min_method" = some v → ∃ s ∈ documentedMethods, v = .str s) := by
  have hmin : checkMinMethod d = .ok () ↔
      ∀ v, d.get "min_method" = some v → ∃ s ∈ documentedMethods, v = .str s := by
    unfold checkMinMethod
    cases hg : d.get "min_method" with
    | none => simp
    | some v =>
      simp only [Option.isSome_some, if_true, assert_ok, Bool.or_eq_true, eqStr_iff, hg, Option.some.injEq,
        documentedMethods, List.mem_cons, List.not_mem_nil, or_false]
      constructor
      · intro h v' hv
        subst hv
        rcases h with ((((h | h) | h) | h) | h) | h <;> exact ⟨_, by simp, h⟩
      · intro h
        obtain ⟨s, hs, hv⟩ := h v rfl
        rcases hs with rfl | rfl | rfl | rfl | rfl | rfl <;> simp [hv]
  unfold checkDensFitMethod
  simp only [bind_ok_unit, assert_ok, hmin, Bool.or_eq_true, eqStr_iff]
  constructor
  · rintro ⟨-, hname, hf, hm⟩
    unfold checkFields at hf
    rcases hname with ((hn | hn) | hn) | hn
    · rw [if_pos ((eqStr_iff _ _ _).2 hn), assert_ok, keysIn_iff] at hf
      refine ⟨"einasto", ["rho_s", "alpha", "r_s"], by simp [documentedProfiles], hn,
        fun kv hkv => ?_, hm⟩
      have := hf kv hkv
      simp only [List.mem_cons, List.not_mem_nil, or_false] at this ⊢
      tauto
    · rw [if_neg (by rw [eqStr_iff, hn]; simp), if_pos ((eqStr_iff _ _ _).2 hn), assert_ok, keysIn_iff] at hf
      refine ⟨"alpha_beta_gamma", ["rho_s", "alpha", "beta", "gamma", "r_s"], by simp [documentedProfiles], hn,
        fun kv hkv => ?_, hm⟩
      have := hf kv hkv
      simp only [List.mem_cons, List.not_mem_nil, or_false] at this ⊢
      tauto
    · rw [if_neg (by rw [eqStr_iff, hn]; simp), if_neg (by rw [eqStr_iff, hn]; simp), assert_ok,
        keysIn_iff] at hf
      refine ⟨"hernquist", ["rho_s", "r_s"], by simp [documentedProfiles], hn,
        fun kv hkv => ?_, hm⟩
      have := hf kv hkv
      simp only [List.mem_cons, List.not_mem_nil, or_false] at this ⊢
      tauto
    · rw [if_neg (by rw [eqStr_iff, hn]; simp), if_neg (by rw [eqStr_iff, hn]; simp), assert_ok,
        keysIn_iff] at hf
      refine ⟨"nfw", ["rho_s", "r_s"], by simp [documentedProfiles], hn,
        fun kv hkv => ?_, hm⟩
      have := hf kv hkv
      simp only [List.mem_cons, List.not_mem_nil, or_false] at this ⊢
      tauto
  · rintro ⟨name, pars, hdoc, hn, hf, hm⟩
    refine ⟨by rw [hn]; rfl, ?_, ?_, hm⟩
    · simp only [documentedProfiles, List.mem_cons, List.not_mem_nil, or_false, Prod.mk.injEq] at hdoc
      rcases hdoc with h | h | h | h <;> simp [hn, h.1]
    · unfold checkFields
      simp only [documentedProfiles, List.mem_cons, List.not_mem_nil, or_false, Prod.mk.injEq] at hdoc
      rcases hdoc with ⟨rfl, rfl⟩ | ⟨rfl, rfl⟩ | ⟨rfl, rfl⟩ | ⟨rfl, rfl⟩
      · rw [if_pos ((eqStr_iff _ _ _).2 hn), assert_ok, keysIn_iff]
        intro kv hkv
        have := hf kv hkv
        simp only [List.mem_cons, List.not_mem_nil, or_false] at this ⊢
        tauto
      · rw [if_neg (by rw [eqStr_iff, hn]; simp), if_pos ((eqStr_iff _ _ _).2 hn), assert_ok, keysIn_iff]
        intro kv hkv
        have := hf kv hkv
        simp only [List.mem_cons, List.not_mem_nil, or_false] at this ⊢
        tauto
      · rw [if_neg (by rw [eqStr_iff, hn]; simp), if_neg (by rw [eqStr_iff, hn]; simp), assert_ok,
          keysIn_iff]
        intro kv hkv
        have := hf kv hkv
        simp only [List.mem_cons, List.not_mem_nil, or_false] at this ⊢
        tauto
      · rw [if_neg (by rw [eqStr_iff, hn]; simp), if_neg (by rw [eqStr_iff, hn]; simp), assert_ok,
          keysIn_iff]
        intro kv hkv
        have := hf kv hkv
        simp only [List.mem_cons, List.not_mem_nil, or_false] at this ⊢
        tauto

/-- C49. Everything else is rejected with an assertion error. -/
theorem C49_rejects (a : Arg) (e : Err) (h : checkDensFitMethod a = .error e) : e = .assertionError := by
  have bind_err : ∀ {β : Type} (x : Except Err Unit) (f : Unit → Except Err β),
      (∀ e, x = .error e → e = .assertionError) → (∀ u e, f u = .error e → e = .assertionError) →
      ∀ e, x.bind f = .error e → e = .assertionError := by
    intro β x f hx hf e he
    cases x with
    | error e' => exact hx e (by simpa [Except.bind] using he)
    | ok u => exact hf u e (by simpa [Except.bind] using he)
  cases a with
  | notDict => exact (Except.error.inj h).symm
  | dict d =>
    refine bind_err _ _ (fun e => assert_error _ e) (fun _ => bind_err _ _ (fun e => assert_error _ e)
      fun _ => bind_err _ _ ?_ ?_) e h
    · intro e he
      unfold checkFields at he
      split at he
      · exact assert_error _ _ he
      · split at he <;> exact assert_error _ _ he
    · intro _ e he
      unfold checkMinMethod at he
      split at he
      · exact assert_error _ _ he
      · cases he

example : checkDensFitMethod (.dict [("profile", .str "einasto"), ("alpha", .num (18 / 100))]) = .ok () :=
  (C49_accepts_iff _).2 ⟨"einasto", ["rho_s", "alpha", "r_s"], by simp [documentedProfiles], rfl, by simp,
    by simp [Dict.get]⟩

/-! ## C86 -/

/-- The six settings. -/
def settings : List String := ["ROverR200", "IT_TOL", "IT_WALL", "IT_MIN", "REDUCED", "SHELL_BASED"]

/-- C86 is false: a setting which does not exist (such as a misspelt one) is ignored, whatever its
value. -/
theorem C86_unknown_setting_refuted (d : Dict) (key : String) (v : Val) (hk : key ∉ settings) :
    checkKatzConfig ((key, v) :: d) = checkKatzConfig d := by
  have h : ∀ s ∈ settings, Dict.lookup ((key, v) :: d) s = d.lookup s := by
    intro s hs
    unfold Dict.lookup Dict.get
    rw [List.find?_cons_of_neg]
    simp only [decide_eq_true_eq]
    rintro rfl
    exact hk hs
  unfold checkKatzConfig
  rw [h "ROverR200" (by simp [settings]), h "IT_TOL" (by simp [settings]),
    h "IT_WALL" (by simp [settings]), h "IT_MIN" (by simp [settings]), h "REDUCED" (by simp [settings]),
    h "SHELL_BASED" (by simp [settings])]

/-- C86 is false: an iteration limit of 99.9 is silently changed to 99. -/
theorem C86_truncated_refuted :
    ∃ k, checkKatzConfig [("ROverR200", .seq [1]), ("IT_TOL", .num (1 / 100)), ("IT_WALL", .num (999 / 10)),
      ("IT_MIN", .num 10), ("REDUCED", .bool false), ("SHELL_BASED", .bool false)] = .ok k ∧
      k.itWall = 99 := by
  refine ⟨⟨[1], 1 / 100, ⌊(999 / 10 : ℚ)⌋, ⌊(10 : ℚ)⌋, false, false⟩, ?_, ?_⟩
  · simp [checkKatzConfig, Dict.lookup, Dict.get, asBool, asRadii, toFloat, toInt, Except.bind, Except.map]
    norm_num
  · norm_num [Int.floor_eq_iff]

/-- Part of C86 which holds: settings are accepted only if all six are present, the switches being
boolean; radii, tolerance and switches are used as given, and so are whole-numbered limits. -/
theorem C86_accepted_partial (d : Dict) (k : Katz) (h : checkKatzConfig d = .ok k) :
    d.get "ROverR200" = some (.seq k.radii) ∧
    d.get "REDUCED" = some (.bool k.reduced) ∧ d.get "SHELL_BASED" = some (.bool k.shellBased) ∧
    (∀ x, d.get "IT_TOL" = some (.num x) → k.itTol = x) ∧
    (∀ n : Int, d.get "IT_WALL" = some (.num n) → k.itWall = n) ∧
    (∀ n : Int, d.get "IT_MIN" = some (.num n) → k.itMin = n) ∧
    ∀ s ∈ settings, (d.get s).isSome := by
  have hl : ∀ key v, d.lookup key = .ok v → d.get key = some v := by
    intro key v hv
    unfold Dict.lookup at hv
    split at hv
    · rename_i v' h'; rw [h', Except.ok.inj hv]
    · cases hv
  have hint : ∀ n : Int, toInt (.num n) = .ok n := by
    intro n; simp [toInt, toFloat, Except.map]
  unfold checkKatzConfig at h
  simp only [bind_ok] at h
  obtain ⟨r, hr, tol, htol, wall, hwall, mn, hmn, red, hred, sh, hsh, sh', hsh', red', hred', r', hr',
    tol', htol', wall', hwall', h⟩ := h
  have hmn' : ∃ mn', toInt mn = .ok mn' ∧ (⟨r', tol', wall', mn', red', sh'⟩ : Katz) = k := by
    cases hm : toInt mn with
    | error e => rw [hm] at h; cases h
    | ok mn' => rw [hm] at h; exact ⟨mn', rfl, Except.ok.inj h⟩
  obtain ⟨mn', hmn', rfl⟩ := hmn'
  have gr := hl _ _ hr
  have gtol := hl _ _ htol
  have gwall := hl _ _ hwall
  have gmn := hl _ _ hmn
  have gred := hl _ _ hred
  have gsh := hl _ _ hsh
  have hB : ∀ v b, asBool v = .ok b → v = .bool b := by
    intro v b hv; cases v <;> simp_all [asBool]
  have hR : ∀ v l, asRadii v = .ok l → v = .seq l := by
    intro v l hv; cases v <;> simp_all [asRadii]
  refine ⟨by rw [gr, hR _ _ hr'], by rw [gred, hB _ _ hred'], by rw [gsh, hB _ _ hsh'], ?_, ?_, ?_, ?_⟩
  · intro x hx
    rw [gtol] at hx
    rw [Option.some.inj hx] at htol'
    exact (Except.ok.inj htol').symm
  · intro n hn
    rw [gwall] at hn
    rw [Option.some.inj hn, hint] at hwall'
    exact (Except.ok.inj hwall').symm
  · intro n hn
    rw [gmn] at hn
    rw [Option.some.inj hn, hint] at hmn'
    exact (Except.ok.inj hmn').symm
  · intro s hs
    simp only [settings, List.mem_cons, List.not_mem_nil, or_false] at hs
    rcases hs with rfl | rfl | rfl | rfl | rfl | rfl
    · rw [gr]; rfl
    · rw [gtol]; rfl
    · rw [gwall]; rfl
    · rw [gmn]; rfl
    · rw [gred]; rfl
    · rw [gsh]; rfl

/-- A value used as the number `x`: a number, or one of the booleans (1 and 0). -/
def IsNumber (v : Option Val) (x : ℚ) : Prop := v = some (.num x) ∨ ∃ b : Bool, v = some (.bool b) ∧ x = if b then 1 else 0

/-- `n` is `x` without its fractional part. -/
def IsWholePart (x : ℚ) (n : Int) : Prop := (0 ≤ x → (n : ℚ) ≤ x ∧ x < n + 1) ∧ (x < 0 → (n : ℚ) - 1 < x ∧ x ≤ n)

theorem lookup_ok (d : Dict) (key : String) (v : Val) : d.lookup key = .ok v ↔ d.get key = some v := by
  unfold Dict.lookup
  cases d.get key <;> simp

theorem asBool_ok (v : Val) (b : Bool) : asBool v = .ok b ↔ v = .bool b := by
  cases v <;> simp [asBool]

theorem asRadii_ok (v : Val) (l : List ℚ) : asRadii v = .ok l ↔ v = .seq l := by
  cases v <;> simp [asRadii]

theorem toFloat_ok (v : Val) (x : ℚ) : toFloat v = .ok x ↔ IsNumber (some v) x := by
  unfold IsNumber
  cases v <;> simp [toFloat, eq_comm]

theorem toInt_ok (v : Val) (n : Int) : toInt v = .ok n ↔ ∃ x, IsNumber (some v) x ∧ IsWholePart x n := by
  have hw : ∀ x : ℚ, (if 0 ≤ x then ⌊x⌋ else ⌈x⌉) = n ↔ IsWholePart x n := by
    intro x
    unfold IsWholePart
    split_ifs with h
    · rw [Int.floor_eq_iff]
      exact ⟨fun h' => ⟨fun _ => h', fun h'' => absurd h (not_le.2 h'')⟩, fun h' => h'.1 h⟩
    · rw [Int.ceil_eq_iff]
      exact ⟨fun h' => ⟨fun h'' => absurd h'' h, fun _ => h'⟩, fun h' => h'.2 (not_le.1 h)⟩
  have hu : ∀ x y, IsNumber (some v) x → IsNumber (some v) y → x = y := by
    intro x y hx hy
    have := (toFloat_ok v x).2 hx
    rw [(toFloat_ok v y).2 hy] at this
    exact (Except.ok.inj this).symm
  unfold toInt
  constructor
  · intro h
    cases hf : toFloat v with
    | error e => rw [hf] at h; cases h
    | ok x =>
      rw [hf] at h
      exact ⟨x, (toFloat_ok v x).1 hf, (hw x).1 (Except.ok.inj h)⟩
  · rintro ⟨x, hx, hn⟩
    rw [(toFloat_ok v x).2 hx]
    exact congrArg Except.ok ((hw x).2 hn)

/-- Part of C86 which holds: exactly which settings are accepted, and what they are used as.  The radii must be a list of numbers, the
switches must be boolean, tolerance and limits must be numbers (or boolean), and limits lose their fractional part.  Missing: settings
which do not exist are ignored (`C86_unknown_setting_refuted`), fractional limits are accepted (`C86_truncated_refuted`). -/
theorem C86_accepted_iff_partial (d : Dict) (k : Katz) :
    checkKatzConfig d = .ok k ↔
      d.get "ROverR200" = some (.seq k.radii) ∧
      d.get "REDUCED" = some (.bool k.reduced) ∧ d.get "SHELL_BASED" = some (.bool k.shellBased) ∧
      IsNumber (d.get "IT_TOL") k.itTol ∧
      (∃ x, IsNumber (d.get "IT_WALL") x ∧ IsWholePart x k.itWall) ∧
      ∃ x, IsNumber (d.get "IT_MIN") x ∧ IsWholePart x k.itMin := by
  have hsome : ∀ {v : Option Val} {x}, IsNumber v x → ∃ w, v = some w := by
    rintro v x (h | ⟨b, h, -⟩) <;> exact ⟨_, h⟩
  unfold checkKatzConfig
  simp only [bind_ok, lookup_ok, asBool_ok, asRadii_ok, toFloat_ok]
  constructor
  · rintro ⟨r, hr, tol, htol, wall, hwall, mn, hmn, red, hred, sh, hsh, sh', rfl, red', rfl, r', rfl, tol', htol',
      wall', hwall', h⟩
    cases hm : toInt mn with
    | error e => rw [hm] at h; cases h
    | ok mn' =>
      rw [hm] at h
      obtain rfl := Except.ok.inj h
      rw [htol, hwall, hmn]
      exact ⟨hr, hred, hsh, htol', (toInt_ok _ _).1 hwall', (toInt_ok _ _).1 hm⟩
  · rintro ⟨hr, hred, hsh, htol, ⟨x, hx, hxn⟩, y, hy, hyn⟩
    obtain ⟨t, ht⟩ := hsome htol
    obtain ⟨w, hw⟩ := hsome hx
    obtain ⟨m, hm⟩ := hsome hy
    refine ⟨_, hr, t, ht, w, hw, m, hm, _, hred, _, hsh, _, rfl, _, rfl, _, rfl, k.itTol, ht ▸ htol, k.itWall,
      (toInt_ok _ _).2 ⟨x, hw ▸ hx, hxn⟩, ?_⟩
    rw [(toInt_ok _ _).2 ⟨y, hm ▸ hy, hyn⟩]
    rfl

/-- The documented settings are accepted and used as given, in any order and beside any others. -/
example (d : Dict) (h1 : d.get "ROverR200" = some (.seq [1 / 10, 1])) (h2 : d.get "IT_TOL" = some (.num (1 / 100)))
    (h3 : d.get "IT_WALL" = some (.num 100)) (h4 : d.get "IT_MIN" = some (.num 10))
    (h5 : d.get "REDUCED" = some (.bool true)) (h6 : d.get "SHELL_BASED" = some (.bool false)) :
    checkKatzConfig d = .ok ⟨[1 / 10, 1], 1 / 100, 100, 10, true, false⟩ := by
  rw [C86_accepted_iff_partial]
  refine ⟨h1, h5, h6, .inl h2, ⟨100, .inl h3, ?_⟩, 10, .inl h4, ?_⟩ <;> norm_num [IsWholePart]

end Verif.Fits
