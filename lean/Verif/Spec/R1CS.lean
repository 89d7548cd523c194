import Verif.Spec.Common
import Mathlib.Algebra.BigOperators.Fin

set_option autoImplicit false

/-!
# Rank-1 constraint systems

The form in which a function is handed to a proof system: a list of constraints `auxiliary variable = product of two
affine expressions`, and one affine expression for each word of the result.
-/

namespace ZkHash.Spec

/-- An affine expression in the inputs (indexed by `ι`) and `m` auxiliary variables. -/
structure Form (F ι : Type) (m : Nat) where
  const : F
  input : ι → F
  aux : Fin m → F

/-- The value of an affine expression. -/
def Form.eval {F ι : Type} [CommRing F] [Fintype ι] {m : Nat} (e : Form F ι m) (x : ι → F) (w : Fin m → F) : F :=
  e.const + ∑ i, e.input i * x i + ∑ k, e.aux k * w k

/-- A system of `m` constraints: auxiliary variable `k` is the product of the affine expressions `left k` and `right k`;
word `i` of the result is the affine expression `out i`. -/
structure R1CS (F ι κ : Type) (m : Nat) where
  left : Fin m → Form F ι m
  right : Fin m → Form F ι m
  out : κ → Form F ι m

/-- The auxiliary variables `w` satisfy the constraints for input `x`, and the result is `y`. -/
def R1CS.Holds {F ι κ : Type} [CommRing F] [Fintype ι] {m : Nat} (C : R1CS F ι κ m) (x : ι → F) (w : Fin m → F)
    (y : κ → F) : Prop :=
  (∀ k, w k = (C.left k).eval x w * (C.right k).eval x w) ∧ ∀ i, y i = (C.out i).eval x w

/-- The system represents the function `f` (which may panic, `none`): whatever auxiliary variables satisfy the
constraints, the result is that of `f`; and for every input there is exactly one choice of auxiliary variables. -/
structure R1CS.Represents {F : Type} [CommRing F] {t u m : Nat} (C : R1CS F (Fin t) (Fin u) m)
    (f : List F → Option (List F)) : Prop where
  sound : ∀ x w y, C.Holds x w y → f (List.ofFn x) = some (List.ofFn y)
  complete : ∀ x, ∃! w, ∃ y, C.Holds x w y

/-- The number of multiplications spent on `x ^ d`. -/
def mulCost : Nat → Nat
  | 2 => 1
  | 3 => 2
  | 5 => 3
  | 7 => 4
  | _ => 0

end ZkHash.Spec
