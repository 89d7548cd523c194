import Verif.Spec.Common

set_option autoImplicit false

/-!
# Specification of Poseidon

The original Poseidon permutation (ePrint 2019/458): every round adds a full row of constants, applies the S-box to
all positions (full rounds) or to position 0 (partial rounds) and multiplies by the MDS matrix.
-/

namespace ZkHash.Spec

open Matrix

variable {F : Type _} [CommRing F]

/-- A full round of Poseidon. -/
def poseidonFull {t : Nat} (M : Matrix (Fin t) (Fin t) F) (d : Nat) (c : Fin t → F) (x : Fin t → F) : Fin t → F :=
  M *ᵥ fun i => (x i + c i) ^ d

/-- A partial round of Poseidon: all constants are added, the S-box is applied to position 0 only. -/
def poseidonPartial {t : Nat} (M : Matrix (Fin t) (Fin t) F) (d : Nat) (c : Fin t → F) (x : Fin t → F) : Fin t → F :=
  M *ᵥ fun i => if i.val = 0 then (x i + c i) ^ d else x i + c i

/-- The Poseidon permutation with `rf` full rounds at each end and `rp` partial rounds in the middle. -/
def poseidon {t : Nat} (M : Matrix (Fin t) (Fin t) F) (d rf rp : Nat) (c : Nat → Nat → F) (x : Fin t → F) : Fin t → F :=
  let full := fun r => poseidonFull M d (fun i : Fin t => c r i)
  let part := fun r => poseidonPartial M d (fun i : Fin t => c r i)
  rounds full (rf + rp) rf (rounds part rf rp (rounds full 0 rf x))

/-- What happens to the state when the constants of a round are only given for the first `n` positions and the rest of
the state is lost: position `i ≥ n` becomes zero. -/
def cut {t : Nat} (n : Nat) (x : Fin t → F) : Fin t → F := fun i => if i.val < n then x i else 0

/-- Poseidon with a row of constants of length `len r` in round `r`, every round dropping the positions that have no
constant before the matrix multiplication. -/
def poseidonCut {t : Nat} (M : Matrix (Fin t) (Fin t) F) (d rf rp : Nat) (len : Nat → Nat) (c : Nat → Nat → F)
    (x : Fin t → F) : Fin t → F :=
  let full := fun r (y : Fin t → F) => M *ᵥ cut (len r) fun i => (y i + c r i) ^ d
  let part := fun r (y : Fin t → F) => M *ᵥ cut (len r) fun i => if i.val = 0 then (y i + c r i) ^ d else y i + c r i
  rounds full (rf + rp) rf (rounds part rf rp (rounds full 0 rf x))

end ZkHash.Spec
