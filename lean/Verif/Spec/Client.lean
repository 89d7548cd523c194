import Verif.Model.Client
import Verif.Spec.Merkle

set_option autoImplicit false

/-!
# Which calls on the shipped parameter sets are legal, and when two calls ask for the same thing
-/

namespace ZkHash.Client

open Statics

/-- The parameter sets, among the statics. -/
def IsParams : Name → Prop
  | .poseidon2 _ | .poseidon _ | .gmimc _ | .neptune _ => True
  | _ => False

/-- The parameter sets whose permutation also has a plain, unoptimized version. -/
def HasNotOpt : Name → Prop
  | .poseidon _ | .gmimc _ => True
  | _ => False

/-- The width at which a permutation can compress two elements: 3, and 4 for Neptune. -/
def treeWidth : Name → Nat
  | .neptune _ => 4
  | _ => 3

/-- The modulus of the field of a parameter set. -/
def modulus : Name → Nat
  | .poseidon2 k => Instances.poseidon2[k].modulus
  | .poseidon k => Instances.poseidon[k].modulus
  | .gmimc k => Instances.gmimc[k].modulus
  | .neptune k => Instances.neptune[k].modulus
  | _ => 0

/-- The legal calls: a permutation gets as many elements as the width says, a compression gets at least two and a tree at
least one, both at the width of trees. -/
def Call.Fits (c : Call) : Prop :=
  IsParams c.static ∧
  match c.op with
  | .new => True
  | .permutation => c.input.length = width c.static
  | .permutationNotOpt => HasNotOpt c.static ∧ c.input.length = width c.static
  | .compress => width c.static = treeWidth c.static ∧ 2 ≤ c.input.length
  | .accumulate => width c.static = treeWidth c.static ∧ c.input ≠ []

/-- The same method, or the optimized and the plain version of the permutation. -/
def SameOp (a b : Op) : Prop :=
  a = b ∨ (a = .permutation ∧ b = .permutationNotOpt) ∨ (a = .permutationNotOpt ∧ b = .permutation)

/-- Two calls on the same parameter set, of the same method, with the same field elements. -/
def Call.Same (c c' : Call) : Prop :=
  c.static = c'.static ∧ SameOp c.op c'.op ∧ elems (modulus c.static) c.input = elems (modulus c.static) c'.input

/-- The compression of two elements by a permutation: its first word on the two elements and zeros. -/
def pairOf {p : Nat} (w : Nat) (π : List (ZMod p) → List (ZMod p)) (a b : ZMod p) : Option (ZMod p) :=
  (π (a :: b :: List.replicate (w - 2) 0)).head?

/-- What a call returns, if `π` is the permutation of its parameter set: the words of the permuted state; the compression of
the first two elements; the root of the tree over the elements. -/
def returns {p : Nat} (w : Nat) (π : List (ZMod p) → List (ZMod p)) : Op → List (ZMod p) → List Nat → Prop
  | .new, _, r => r = []
  | .permutation, x, r => r = ints (π x)
  | .permutationNotOpt, x, r => r = ints (π x)
  | .compress, x, r => ∃ a b rest y, x = a :: b :: rest ∧ pairOf w π a b = some y ∧ r = [y.val]
  | .accumulate, x, r => ∃ (hne : x ≠ []) (y : ZMod p),
      Spec.tree (pairOf w π) (Spec.depth x.length) (Spec.padded x hne) = some y ∧ r = [y.val]

end ZkHash.Client
