import Mathlib.Data.Nat.Log

set_option autoImplicit false

/-!
# Specification of Merkle trees

A perfect binary tree of depth `k` over the leaves `f 0, ..., f (2^k - 1)`. The compression function `c` may fail
(`none`); then the tree has no root.
-/

namespace ZkHash.Spec

variable {F : Type _}

/-- The leaf sequence starting at position `p`. -/
def shift (p : Nat) (f : Nat → F) : Nat → F := fun i => f (p + i)

/-- Root of the perfect tree of depth `k`: compress the roots of the left and of the right half. -/
def tree (c : F → F → Option F) : Nat → (Nat → F) → Option F
  | 0, f => some (f 0)
  | k + 1, f =>
    match tree c k f, tree c k (shift (2 ^ k) f) with
    | some a, some b => c a b
    | _, _ => none

/-- The same with a compression function per level: a node at height `h` is compressed with level `h - 1`. -/
def treeLv (c : Nat → F → F → Option F) : Nat → (Nat → F) → Option F
  | 0, f => some (f 0)
  | k + 1, f =>
    match treeLv c k f, treeLv c k (shift (2 ^ k) f) with
    | some a, some b => c k a b
    | _, _ => none

/-- Root of the subtree at height `h` and position `j`. -/
def node (c : F → F → Option F) (f : Nat → F) (h j : Nat) : Option F := tree c h (shift (j * 2 ^ h) f)

/-- The leaves of `set`, continued by copies of the last leaf. -/
def padded (set : List F) (hne : set ≠ []) : Nat → F := fun i => set.getD i (set.getLast hne)

/-- Depth of the tree over `n` leaves: the least `k ≥ 1` with `n ≤ 2^k`. -/
def depth (n : Nat) : Nat := max 1 (Nat.clog 2 n)

/-- A two-to-one function used on slices: it is only called with two elements. -/
def onPair (h : F → F → F) : List F → Option F
  | [a, b] => some (h a b)
  | _ => none

/-- `p` is the pair of values below position `j` of height `h + 1`: the pair that the tree compresses there. -/
def TreePair (c : F → F → Option F) (f : Nat → F) (h j : Nat) (p : F × F) : Prop :=
  node c f h (2 * j) = some p.1 ∧ node c f h (2 * j + 1) = some p.2

end ZkHash.Spec
