import Verif.Model.Fields
import Mathlib.Logic.Function.Basic
import Mathlib.Algebra.Group.Defs
import Mathlib.Data.Set.Defs
import Mathlib.Data.List.OfFn

set_option autoImplicit false

/-!
# What a function does when one word of its input varies
-/

namespace ZkHash.Spec

variable {F : Type}

/-- The values of word `j` of the input, the other words being those of `x`, for which word `i` of the result is `c`. -/
def valuesWith {t : Nat} (run : List F → Option (List F)) (x : Fin t → F) (j : Fin t) (i : Nat) (c : F) : Set F :=
  {a | ∃ out, run (List.ofFn (Function.update x j a)) = some out ∧ out[i]? = some c}

/-- The values of word `j` of the input for which adding `δ` to that word changes word `i` of the result by `β`. -/
def valuesWithDifference [Add F] [Sub F] {t : Nat} (run : List F → Option (List F)) (x : Fin t → F) (j : Fin t) (δ : F)
    (i : Nat) (β : F) : Set F :=
  {a | ∃ out out' c c', run (List.ofFn (Function.update x j (a + δ))) = some out ∧
    run (List.ofFn (Function.update x j a)) = some out' ∧ out[i]? = some c ∧ out'[i]? = some c' ∧ c - c' = β}

/-- The four fields of 254 and 255 bits. -/
def largeFields : List Nat := [Fields.bn256Modulus, Fields.bls12Modulus, Fields.pallasModulus, Fields.vestaModulus]

end ZkHash.Spec
