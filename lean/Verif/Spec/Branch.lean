import Verif.Spec.Common
import Mathlib.InformationTheory.Hamming
import Mathlib.LinearAlgebra.Matrix.Determinant.Basic

set_option autoImplicit false

/-!
# Diffusion of linear layers

`hammingDist x y` is the number of positions in which `x` and `y` differ.
-/

namespace ZkHash.Spec

open Matrix

/-- Maximum distance separable: every square submatrix (rows `r`, columns `c`) is invertible. -/
def IsMDS {F : Type _} [Field F] {t : Nat} (M : Matrix (Fin t) (Fin t) F) : Prop :=
  ∀ (k : Nat) (r c : Fin k ↪ Fin t), (M.submatrix r c).det ≠ 0

/-- `f` (which may panic, `none`) has differential branch number at least `b` on states of width `t`: it returns on all
states of width `t`, and for two different states the number of differing positions before and after adds up to at least
`b`. -/
def BranchAtLeast {F : Type _} [DecidableEq F] (t b : Nat) (f : List F → Option (List F)) : Prop :=
  ∀ x y : Fin t → F, ∃ x' y' : Fin t → F,
    f (List.ofFn x) = some (List.ofFn x') ∧ f (List.ofFn y) = some (List.ofFn y') ∧
    (x ≠ y → b ≤ hammingDist x y + hammingDist x' y')

end ZkHash.Spec
