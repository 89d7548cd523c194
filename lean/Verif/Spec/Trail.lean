import Verif.Spec.Common
import Mathlib.Algebra.BigOperators.Group.Finset.Basic

set_option autoImplicit false

/-!
# The S-boxes two computations of a permutation reach with different inputs
-/

namespace ZkHash.Spec

/-- `s 0, s 1, ...` are the states before the rounds `0, 1, ..., R - 1` and the state after the last one, in a
computation whose rounds `rb, ..., rb + rp - 1` are partial and whose other rounds are full (`full state number` and
`part state number`, which may panic). -/
structure Trail {F : Type _} (full part : List F → Nat → Option (List F)) (rb rp R : Nat) (s : Nat → List F) : Prop where
  full_round : ∀ r < R, (r < rb ∨ rb + rp ≤ r) → full (s r) r = some (s (r + 1))
  part_round : ∀ r < R, rb ≤ r → r < rb + rp → part (s r) r = some (s (r + 1))

/-- The number of S-boxes of round `r` that receive different inputs, if the states before the round are `x` and `y`:
a full round applies the S-box to every word, a partial round to the first word. -/
def activeIn {F : Type _} [DecidableEq F] (rb rp r : Nat) (x y : List F) : Nat :=
  if rb ≤ r ∧ r < rb + rp then (if x.head? = y.head? then 0 else 1)
  else (x.zip y).countP fun p => p.1 ≠ p.2

/-- The number of S-boxes that receive different inputs in all `R` rounds of the two computations `s` and `s'`. -/
def activeTotal {F : Type _} [DecidableEq F] (rb rp R : Nat) (s s' : Nat → List F) : Nat :=
  ∑ r ∈ Finset.range R, activeIn rb rp r (s r) (s' r)

/-- The number of pairs of positions `(2i, 2i + 1)` in which two states differ: the number of S-boxes with different
inputs in an external round of Neptune, whose S-box takes such a pair. -/
def activePairs {F : Type _} [DecidableEq F] (x y : List F) : Nat :=
  (List.range (x.length / 2)).countP fun i => decide (x[2 * i]? ≠ y[2 * i]? ∨ x[2 * i + 1]? ≠ y[2 * i + 1]?)

end ZkHash.Spec
