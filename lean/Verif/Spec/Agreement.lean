import Mathlib.Algebra.MvPolynomial.Eval
import Mathlib.Data.Fin.VecNotation
import Mathlib.Algebra.Polynomial.Eval.Defs

set_option autoImplicit false

/-!
# Inputs at which a result is related to its input by a polynomial
-/

namespace ZkHash.Spec

variable {F : Type} [CommRing F]

/-- The inputs `x` for which word `i` of the result, say `c`, satisfies `R(c) = g(x)`. With `R = X`: for which word `i` of the
result is `g(x)`. -/
def inputsRelated {t : Nat} (run : List F → Option (List F)) (i : Nat) (R : Polynomial F) (g : MvPolynomial (Fin t) F) :
    Set (Fin t → F) :=
  {x | ∃ out c, run (List.ofFn x) = some out ∧ out[i]? = some c ∧ R.eval c = MvPolynomial.eval x g}

/-- The pairs of elements `a`, `b` whose digest `h` satisfies `R(h) = g(a, b)`. -/
def pairsRelated (compress : List F → Option F) (R : Polynomial F) (g : MvPolynomial (Fin 2) F) : Set (F × F) :=
  {z | ∃ h, compress [z.1, z.2] = some h ∧ R.eval h = MvPolynomial.eval ![z.1, z.2] g}

end ZkHash.Spec
