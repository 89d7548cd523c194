import Verif.Spec.Merkle

set_option autoImplicit false

/-!
# Authentication paths

The library computes roots only. A user opens a leaf by giving the values of the sibling nodes on its way to the root.
-/

namespace ZkHash.Spec

variable {F : Type _}

/-- What a verifier computes: starting with the value `x` at position `i` of level `lv`, combine it with the next
sibling (the value is the left argument at an even position, the right argument at an odd one), and go to position
`i / 2` of the next level. -/
def pathRoot (c : Nat → F → F → Option F) : Nat → Nat → F → List F → Option F
  | _, _, x, [] => some x
  | lv, i, x, s :: rest =>
    match (if i % 2 = 0 then c lv x s else c lv s x) with
    | some y => pathRoot c (lv + 1) (i / 2) y rest
    | none => none

/-- The value of the node at height `h` and position `j`, with one compression function per level. -/
def nodeLv (c : Nat → F → F → Option F) (f : Nat → F) (h j : Nat) : Option F := treeLv c h (shift (j * 2 ^ h) f)

/-- The pairs that the verifier compresses on the way, each with its level. -/
def pathPairs (c : Nat → F → F → Option F) : Nat → Nat → F → List F → List (Nat × F × F)
  | _, _, _, [] => []
  | lv, i, x, s :: rest =>
    let p := if i % 2 = 0 then (x, s) else (s, x)
    (lv, p) :: match c lv p.1 p.2 with
      | some y => pathPairs c (lv + 1) (i / 2) y rest
      | none => []

/-- `p` is the pair of values below position `j` of height `h + 1`: the pair that the tree compresses there. -/
def TreePairLv (c : Nat → F → F → Option F) (f : Nat → F) (h j : Nat) (p : F × F) : Prop :=
  nodeLv c f h (2 * j) = some p.1 ∧ nodeLv c f h (2 * j + 1) = some p.2

/-- The position beside `j` under the same parent. -/
def sibling (j : Nat) : Nat := if j % 2 = 0 then j + 1 else j - 1

end ZkHash.Spec
