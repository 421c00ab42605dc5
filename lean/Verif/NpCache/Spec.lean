import Verif.NpCache.Model
import Mathlib.Data.List.Forall2

/-! # Specification vocabulary for the array cache -/

namespace Verif.NpCache

/-- Value equality of an argument with what the user function receives: same shape, same entries
and (unless the array is empty) same dtype. -/
def SameValue : Val → Val → Prop
  | .arr d s a, .arr d' s' a' => (⟨s, a⟩ : Σ s, Nd Num s) = ⟨s', a'⟩ ∧ (size s ≠ 0 → d' = d)
  | .lists l, .lists l' => l' = l
  | .num x, .num y => y = x
  | .str x, .str y => y = x
  | .none, .none => True
  | _, _ => False

/-- Argument lists of the documented form: `nbA` arrays, then `nbL` lists of lists, then plain
arguments. -/
def Documented (nbA nbL : Nat) (args : List Val) : Prop :=
  nbA + nbL ≤ args.length ∧
  ∀ i (h : i < args.length), (i < nbA → ∃ d s a, args[i] = .arr d s a) ∧
    (nbA ≤ i → i < nbA + nbL → ∃ l, args[i] = .lists l) ∧
    (nbA + nbL ≤ i → (∀ d s a, args[i] ≠ .arr d s a) ∧ ∀ l, args[i] ≠ .lists l)

/-- Numerically equal (IEEE `==`): NaN equals nothing, `-0.0 == 0.0`. -/
def NumEq : Num → Num → Prop
  | .fin p, .fin q => p = q
  | .fin p, .negZero => p = 0
  | .negZero, .fin q => q = 0
  | .negZero, .negZero => True
  | .inf a, .inf b => a = b
  | _, _ => False

/-- Equal as numbers, or both NaN. -/
def NumLike (x y : Num) : Prop := NumEq x y ∨ (x = .nan ∧ y = .nan)

/-- Entrywise relation of arrays of one shape. -/
def NdRel (R : Num → Num → Prop) : (s : List Nat) → Nd Num s → Nd Num s → Prop
  | [], a, b => R a b
  | _ :: s, a, b => ∀ i, NdRel R s (a i) (b i)

/-- Arguments agreeing in shape and, up to `R`, in all entries (number types are ignored). -/
def Agree (R : Num → Num → Prop) : Val → Val → Prop
  | .arr _ s a, .arr _ s' a' => ∃ h : s = s', NdRel R s' (h ▸ a) a'
  | .lists l, .lists l' => List.Forall₂ (List.Forall₂ fun x y => R x.val y.val) l l'
  | .num x, .num y => R x.val y.val
  | .str x, .str y => x = y
  | .none, .none => True
  | _, _ => False

end Verif.NpCache
