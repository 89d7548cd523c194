/-!
# Rust fragments used by the model

Only the language and library primitives that the code of `/repo` relies on.  A panic is `none`.
-/

set_option autoImplicit false

namespace ZkHash

/-- 2^64: `usize` on the 64-bit targets the crate is used on. -/
def usizeSize : Nat := 2 ^ 64

/-- `a - b` on `usize`: overflow-checked in debug builds (panic), wrapping in release builds. -/
def usub (dbg : Bool) (a b : Nat) : Option Nat :=
  if b ≤ a then some (a - b)
  else if dbg then none
  else some (a + usizeSize - b)

/-- `a + b` on `usize`: overflow-checked in debug builds (panic), wrapping in release builds. -/
def uadd (dbg : Bool) (a b : Nat) : Option Nat :=
  if a + b < usizeSize then some (a + b)
  else if dbg then none
  else some ((a + b) % usizeSize)

/-- `a * b` on `usize`: overflow-checked in debug builds (panic), wrapping in release builds. -/
def umul (dbg : Bool) (a b : Nat) : Option Nat :=
  if a * b < usizeSize then some (a * b)
  else if dbg then none
  else some (a * b % usizeSize)

/-- `assert!(b)`. -/
def assertThat (b : Bool) : Option Unit := if b then some () else none

/-- `debug_assert!(b)`. -/
def debugAssert (dbg b : Bool) : Option Unit := if dbg && !b then none else some ()

/-- `v[i] = x` on a vector: panics out of bounds. -/
def setAt {α : Type _} (l : List α) (i : Nat) (x : α) : Option (List α) :=
  if i < l.length then some (l.set i x) else none

/-- `m[i][j]` on a vector of vectors: panics out of bounds. -/
def get2 {α : Type _} (m : List (List α)) (i j : Nat) : Option α := do
  let row ← m[i]?
  row[j]?

/-- `m[i][j] = x` on a vector of vectors: panics out of bounds. -/
def set2 {α : Type _} (m : List (List α)) (i j : Nat) (x : α) : Option (List (List α)) := do
  let row ← m[i]?
  let row ← setAt row j x
  setAt m i row

/-- `slice::rotate_right(1)`: panics when `1 > len`. -/
def rotateRight1 {α : Type _} (l : List α) : Option (List α) :=
  match l.getLast? with
  | none => none
  | some x => some (x :: l.dropLast)

/-- `slice::swap(i, j)`: panics out of bounds. -/
def swapAt {α : Type _} (l : List α) (i j : Nat) : Option (List α) := do
  let a ← l[i]?
  let b ← l[j]?
  let l ← setAt l i b
  setAt l j a

/-- The indices of `(0..len).step_by(2)`: `0, 2, 4, ...` below `len` (used in `merkle_tree_fp.rs` line 55 and
`merkle_tree_f2.rs` line 61). -/
def stepBy2 (len : Nat) : List Nat := (List.range ((len + 1) / 2)).map (2 * ·)

/-- The part of the `ark_ff::Field` interface that is not a ring operation: `inverse()`. -/
class ArkInverse (F : Type _) where
  /-- `Field::inverse`: `None` on zero. -/
  inverse : F → Option F

end ZkHash
