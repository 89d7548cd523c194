import Verif.Spec.Common
import Mathlib.LinearAlgebra.Matrix.Notation

set_option autoImplicit false

/-!
# Specification of Neptune (ePrint 2021/1695)

States have even width `2k`. Position `i` belongs to pair `i / 2`.
-/

namespace ZkHash.Spec

open Matrix

variable {F : Type _} [CommRing F]

/-- The quadratic S-box on a pair (with `α = β = 1`). -/
def neptunePair (γ : F) (p : F × F) : F × F :=
  (2 * p.1 + p.2 + 3 * (p.1 - p.2) ^ 2 + (p.1 - 2 * p.2 - (p.1 - p.2) ^ 2 + γ) ^ 2,
   p.1 + 3 * p.2 + 4 * (p.1 - p.2) ^ 2 + (p.1 - 2 * p.2 - (p.1 - p.2) ^ 2 + γ) ^ 2)

/-- Apply a map of pairs to all `k` pairs of a state. -/
def onPairs {k : Nat} (g : F × F → F × F) (x : Fin (2 * k) → F) : Fin (2 * k) → F := fun i =>
  let y := g (x ⟨2 * (i / 2), by omega⟩, x ⟨2 * (i / 2) + 1, by omega⟩)
  if i.val % 2 = 0 then y.1 else y.2

/-- The matrix that acts as `A` on the even positions and as `B` on the odd positions. -/
def parityMatrix {k : Nat} (A B : Matrix (Fin k) (Fin k) F) : Matrix (Fin (2 * k)) (Fin (2 * k)) F := fun i j =>
  if i.val % 2 ≠ j.val % 2 then 0
  else if i.val % 2 = 0 then A ⟨i / 2, by omega⟩ ⟨j / 2, by omega⟩ else B ⟨i / 2, by omega⟩ ⟨j / 2, by omega⟩

/-- The fixed external matrix for width 4. -/
def neptuneExt4 : Matrix (Fin (2 * 2)) (Fin (2 * 2)) F := parityMatrix !![2, 1; 1, 2] !![1, 2; 2, 1]

/-- The fixed external matrix for width 8. -/
def neptuneExt8 : Matrix (Fin (2 * 4)) (Fin (2 * 4)) F :=
  parityMatrix !![3, 2, 1, 1; 1, 3, 2, 1; 1, 1, 3, 2; 2, 1, 1, 3] !![1, 1, 2, 3; 3, 1, 1, 2; 2, 3, 1, 1; 1, 2, 3, 1]

/-- The internal matrix: ones everywhere, `mu_i + 1` on the diagonal. -/
def neptuneInternal (t : Nat) (mu : Nat → F) : Matrix (Fin t) (Fin t) F := fun i j => if i = j then mu i + 1 else 1

/-- An external round. -/
def neptuneExtRound {k : Nat} (ME : Matrix (Fin (2 * k)) (Fin (2 * k)) F) (γ : F) (c : Fin (2 * k) → F)
    (x : Fin (2 * k) → F) : Fin (2 * k) → F :=
  ME *ᵥ onPairs (neptunePair γ) x + c

/-- An internal round. -/
def neptuneIntRound {t : Nat} (MI : Matrix (Fin t) (Fin t) F) (d : Nat) (c : Fin t → F)
    (x : Fin t → F) : Fin t → F :=
  (MI *ᵥ fun i => if i.val = 0 then x i ^ d else x i) + c

/-- The Neptune permutation with `rf` external rounds at each end and `rp` internal rounds in the middle. -/
def neptune {k : Nat} (ME MI : Matrix (Fin (2 * k)) (Fin (2 * k)) F) (d : Nat) (γ : F) (rf rp : Nat)
    (c : Nat → Nat → F) (x : Fin (2 * k) → F) : Fin (2 * k) → F :=
  let ext := fun r => neptuneExtRound ME γ (fun i : Fin (2 * k) => c r i)
  let int := fun r => neptuneIntRound MI d (fun i : Fin (2 * k) => c r i)
  rounds ext (rf + rp) rf (rounds int rf rp (rounds ext 0 rf (ME *ᵥ x)))

end ZkHash.Spec
