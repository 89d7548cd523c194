import Mathlib.Data.Matrix.Mul
import Mathlib.Data.List.Basic

set_option autoImplicit false

/-!
# Vocabulary shared by the specifications
-/

namespace ZkHash.Spec

/-- Entry `(r, i)` of a table of rows (`0` outside the table). -/
def tab {F : Type _} [Zero F] (T : List (List F)) (r i : Nat) : F := (T.getD r []).getD i 0

/-- Entry `i` of a list (`0` outside). -/
def vec {F : Type _} [Zero F] (l : List F) (i : Nat) : F := l.getD i 0

/-- Apply `f a`, then `f (a+1)`, ..., then `f (a+n-1)`. -/
def rounds {S : Type _} (f : Nat → S → S) (a : Nat) : Nat → S → S
  | 0, x => x
  | n + 1, x => f (a + n) (rounds f a n x)

/-- The list of rows of a matrix. -/
def rowsOf {F : Type _} {n m : Nat} (A : Matrix (Fin n) (Fin m) F) : List (List F) :=
  List.ofFn fun i => List.ofFn fun j => A i j

/-- `f` (which may panic, `none`) is a permutation of the states of width `t`: it returns a state of width `t` on every
state of width `t`, and every state of width `t` is the output of exactly one state of width `t`. -/
def IsPermutation {F : Type _} (t : Nat) (f : List F → Option (List F)) : Prop :=
  (∀ x, x.length = t → ∃ y, y.length = t ∧ f x = some y) ∧
  (∀ y, y.length = t → ∃! x, x.length = t ∧ f x = some y)

end ZkHash.Spec
