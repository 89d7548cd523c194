import Mathlib.Algebra.Group.Defs
import Mathlib.Data.Set.Defs
import Mathlib.Data.List.OfFn

set_option autoImplicit false

/-!
# What a function does when its input moves in a given direction
-/

namespace ZkHash.Spec

variable {F : Type}

/-- The inputs `x` for which going from `x` to `x + v` changes word `i` of the result by `β`. -/
def inputsWithDifference [Add F] [Sub F] {t : Nat} (run : List F → Option (List F)) (v : Fin t → F) (i : Nat) (β : F) :
    Set (Fin t → F) :=
  {x | ∃ out out' c c', run (List.ofFn fun l => x l + v l) = some out ∧ run (List.ofFn x) = some out' ∧
    out[i]? = some c ∧ out'[i]? = some c' ∧ c - c' = β}

/-- The points of the line through `x` in direction `v`, as multiples of `v`, at which word `i` of the result is `c`. -/
def pointsWith [Add F] [Mul F] {t : Nat} (run : List F → Option (List F)) (x v : Fin t → F) (i : Nat) (c : F) : Set F :=
  {u | ∃ out, run (List.ofFn fun l => x l + u * v l) = some out ∧ out[i]? = some c}

/-- The pairs of elements for which adding `δ` changes the digest by `β`. -/
def pairsWithDifference [Add F] [Sub F] (compress : List F → Option F) (δ : F × F) (β : F) : Set (F × F) :=
  {z | ∃ h h', compress [z.1 + δ.1, z.2 + δ.2] = some h ∧ compress [z.1, z.2] = some h' ∧ h - h' = β}

end ZkHash.Spec
