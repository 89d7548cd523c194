import Verif.Spec.Common
import Mathlib.LinearAlgebra.Matrix.Notation

set_option autoImplicit false

/-!
# Specification of Poseidon2

From the Poseidon2 paper (ePrint 2023/323), Sections 5 and 6: the matrices and the round structure. States are
vectors `Fin t → F`.
-/

namespace ZkHash.Spec

open Matrix

variable {F : Type _} [CommRing F]

/-- The 4x4 MDS matrix `M4`. -/
def M4 : Matrix (Fin 4) (Fin 4) F :=
  !![5, 7, 1, 3;
     4, 6, 1, 1;
     1, 3, 5, 7;
     1, 1, 4, 6]

/-- The external matrix: `circ(2,1)`, `circ(2,1,1)`, `M4`, and for `t = 4k ≥ 8` the block matrix
`circ(2*M4, M4, ..., M4)`. -/
def externalMatrix (t : Nat) : Matrix (Fin t) (Fin t) F :=
  Matrix.of fun i j =>
    if t < 4 then (if i = j then 2 else 1)
    else
      let e : F := M4 ⟨i % 4, Nat.mod_lt _ (by decide)⟩ ⟨j % 4, Nat.mod_lt _ (by decide)⟩
      if t = 4 then e
      else if i.val / 4 = j.val / 4 then 2 * e else e

/-- The internal matrix: ones off the diagonal; on the diagonal `2, 3` for `t = 2`, `2, 2, 3` for `t = 3`, and
`1 + diag i` for larger widths. -/
def internalMatrix (t : Nat) (diag : Nat → F) : Matrix (Fin t) (Fin t) F :=
  Matrix.of fun i j =>
    if i = j then
      (if t < 4 then (if i.val + 1 = t then 3 else 2) else 1 + diag i)
    else 1

/-- A full round: add constants, S-box everywhere, multiply. -/
def fullRound {t : Nat} (M : Matrix (Fin t) (Fin t) F) (d : Nat) (c : Fin t → F) (x : Fin t → F) : Fin t → F :=
  M *ᵥ fun i => (x i + c i) ^ d

/-- A partial round of Poseidon2: constant and S-box on position 0 only, multiply. -/
def partialRound {t : Nat} (M : Matrix (Fin t) (Fin t) F) (d : Nat) (c0 : F) (x : Fin t → F) : Fin t → F :=
  M *ᵥ fun i => if i.val = 0 then (x i + c0) ^ d else x i

/-- The Poseidon2 permutation with `rf` full rounds at each end and `rp` partial rounds in the middle; `c r i` is
round constant `i` of round `r`. -/
def poseidon2 {t : Nat} (ME MI : Matrix (Fin t) (Fin t) F) (d rf rp : Nat) (c : Nat → Nat → F)
    (x : Fin t → F) : Fin t → F :=
  let full := fun r => fullRound ME d (fun i : Fin t => c r i)
  let part := fun r => partialRound MI d (c r 0)
  rounds full (rf + rp) rf (rounds part rf rp (rounds full 0 rf (ME *ᵥ x)))

/-- The widths Poseidon2 is defined for in this library. -/
def Supported (t : Nat) : Prop := t = 2 ∨ t = 3 ∨ t = 4 ∨ t = 8 ∨ t = 12 ∨ t = 16 ∨ t = 20 ∨ t = 24

/-- Constructor arguments of the right shape: supported width and degree, a diagonal of at least `t` entries (not
needed for `t = 2, 3`), and at least `rounds_f + rounds_p` rows of constants, none shorter than `t`; the
number of rounds is a `usize`. -/
structure WellShaped (t d rounds_f rounds_p : Nat) (diag : List F) (rc : List (List F)) : Prop where
  width : Supported t
  degree : d = 3 ∨ d = 5 ∨ d = 7
  diag_len : 4 ≤ t → t ≤ diag.length
  rc_len : rounds_f + rounds_p ≤ rc.length
  rc_rows : ∀ row ∈ rc, t ≤ row.length
  fits : rounds_f + rounds_p < 2 ^ 64

end ZkHash.Spec
