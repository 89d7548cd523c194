import Verif.Spec.Common

set_option autoImplicit false

/-!
# Specification of GMiMC (expanding round function, ePrint 2019/397)

States are vectors indexed by `Fin (s + 1)`; subtraction of indices is cyclic.
-/

namespace ZkHash.Spec

variable {F : Type _} [CommRing F]

/-- The expanding Feistel step: `(x_0 + c)^d` is added to every position except position 0. -/
def feistel {s : Nat} (d : Nat) (c : F) (x : Fin (s + 1) → F) : Fin (s + 1) → F :=
  fun i => if i = 0 then x 0 else x i + (x 0 + c) ^ d

/-- Cyclic rotation to the right by one position. -/
def rotate {s : Nat} (x : Fin (s + 1) → F) : Fin (s + 1) → F := fun i => x (i - 1)

/-- GMiMC with `n + 1` rounds: all but the last round are followed by a rotation. -/
def gmimc {s : Nat} (d : Nat) (c : Nat → F) (n : Nat) (x : Fin (s + 1) → F) : Fin (s + 1) → F :=
  feistel d (c n) (rounds (fun r y => rotate (feistel d (c r) y)) 0 n x)

end ZkHash.Spec
