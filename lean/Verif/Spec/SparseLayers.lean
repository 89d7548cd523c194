import Verif.Spec.Common

set_option autoImplicit false

/-!
# The sparse factorisation of a linear layer (C92)
-/

namespace ZkHash.Spec

open Matrix

/-- A function applied to the first entry of a state; the other entries stay. -/
def onFirst {F : Type _} {s : Nat} (g : F → F) (y : Fin (s + 1) → F) : Fin (s + 1) → F :=
  Function.update y 0 (g (y 0))

/-- The matrix with first row `a, w`, first column `a, v` and the unit matrix as its lower-right block. -/
def sparseMatrix {F : Type _} [Zero F] [One F] {s : Nat} (a : F) (v w : Fin s → F) :
    Matrix (Fin (s + 1)) (Fin (s + 1)) F :=
  Matrix.of (Fin.cases (Fin.cases a w) fun i => Fin.cases (v i) fun j => if i = j then 1 else 0)

/-- The matrix with a one in the upper left corner, `B` as its lower-right block and zeros elsewhere. -/
def cornerOne {F : Type _} [Zero F] [One F] {s : Nat} (B : Matrix (Fin s) (Fin s) F) :
    Matrix (Fin (s + 1)) (Fin (s + 1)) F :=
  Matrix.of (Fin.cases (Fin.cases 1 fun _ => 0) fun i => Fin.cases 0 fun j => B i j)

end ZkHash.Spec
