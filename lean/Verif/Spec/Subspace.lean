import Verif.Spec.Common
import Mathlib.LinearAlgebra.Matrix.ToLin

set_option autoImplicit false

/-!
# Invariant subspaces of linear layers
-/

namespace ZkHash.Spec

/-- `f` (which may panic, `none`) applied `n` times. -/
def times {S : Type _} (f : S → Option S) : Nat → S → Option S
  | 0, x => some x
  | n + 1, x => (times f n x).bind f

/-- `f` returns on every state of the subspace `W`, with a state of `W`. -/
def MapsInto {F : Type _} [Field F] {t : Nat} (W : Submodule F (Fin t → F)) (f : List F → Option (List F)) : Prop :=
  ∀ w ∈ W, ∃ w' ∈ W, f (List.ofFn w) = some (List.ofFn w')

/-- Two states go through the rounds `r, ..., r + k - 1` (`round state number`, which may panic), and before each of
them they have the same first word. -/
def SameFirstWord {F : Type _} (round : List F → Nat → Option (List F)) (r k : Nat) (x y : List F) : Prop :=
  ∀ j < k, ∃ u v, (List.range' r j).foldlM round x = some u ∧ (List.range' r j).foldlM round y = some v ∧
    u.head? = v.head?

end ZkHash.Spec
