import Verif.Model.Rust
import Mathlib.Algebra.Ring.Defs

set_option autoImplicit false

/-!
# Model of the reference functions in `/repo/poseidon2_rust_params.sage`

`matrix * vector` raises an error when the number of columns differs from the length of the vector; `round_constants[i]`
raises an error out of range. Errors are `none`. `x^alpha` is the power of the ring.
-/

namespace ZkHash.Sage

variable {F : Type _} [CommRing F]

/-- `list(matrix * vector(v))`. -/
def matVec (M : List (List F)) (v : List F) : Option (List F) :=
  M.mapM fun row => if row.length = v.length then some ((List.zipWith (· * ·) row v).sum) else none

/-- `for i in range(0, t): state_words[i] = state_words[i] + round_constants[round_constants_counter];
round_constants_counter += 1`, `poseidon2_rust_params.sage` lines 593-595, 603-605, 612-614 (and 551-553, 561-563, 570-572).
The state is `(round_constants_counter, state_words)`. -/
def addConstants (t : Nat) (rc : List F) (st : Nat × List F) : Option (Nat × List F) :=
  (List.range t).foldlM (fun st i => do
    let x ← st.2[i]?
    let c ← rc[st.1]?
    let words ← setAt st.2 i (x + c)
    pure (st.1 + 1, words)) st

/-- `for i in range(0, t): state_words[i] = (state_words[i])^alpha`, lines 596-597 and 615-616 (554-555, 573-574). -/
def sboxAll (t alpha : Nat) (words : List F) : Option (List F) :=
  (List.range t).foldlM (fun words i => do
    let x ← words[i]?
    setAt words i (x ^ alpha)) words

/-- One full round, lines 591-598 and 610-617 (549-556, 568-575). -/
def fullRound (t alpha : Nat) (M : List (List F)) (rc : List F) (st : Nat × List F) : Option (Nat × List F) := do
  let st ← addConstants t rc st
  let words ← sboxAll t alpha st.2
  let words ← matVec M words
  pure (st.1, words)

/-- One partial round, lines 601-607 (559-565). -/
def partialRound (t alpha : Nat) (M : List (List F)) (rc : List F) (st : Nat × List F) : Option (Nat × List F) := do
  let st ← addConstants t rc st
  let x ← st.2[0]?
  let words ← setAt st.2 0 (x ^ alpha)
  let words ← matVec M words
  pure (st.1, words)

/-- `poseidon2(input_words, matrix_full, matrix_partial, round_constants)`, `poseidon2_rust_params.sage` lines 579-619;
the script's globals `t`, `alpha`, `R_F_FIXED`, `R_P_FIXED` are arguments. -/
def poseidon2 (t alpha R_F R_P : Nat) (matrix_full matrix_partial : List (List F)) (round_constants : List F)
    (input_words : List F) : Option (List F) := do
  let R_f := R_F / 2
  let words ← matVec matrix_full input_words
  let st ← (List.range R_f).foldlM (fun st _ => fullRound t alpha matrix_full round_constants st) (0, words)
  let st ← (List.range R_P).foldlM (fun st _ => partialRound t alpha matrix_partial round_constants st) st
  let st ← (List.range R_f).foldlM (fun st _ => fullRound t alpha matrix_full round_constants st) st
  pure st.2

/-- `poseidon(input_words, matrix, round_constants)`, `poseidon2_rust_params.sage` lines 540-577. -/
def poseidon (t alpha R_F R_P : Nat) (matrix : List (List F)) (round_constants : List F)
    (input_words : List F) : Option (List F) := do
  let R_f := R_F / 2
  let st ← (List.range R_f).foldlM (fun st _ => fullRound t alpha matrix round_constants st) (0, input_words)
  let st ← (List.range R_P).foldlM (fun st _ => partialRound t alpha matrix round_constants st) st
  let st ← (List.range R_f).foldlM (fun st _ => fullRound t alpha matrix round_constants st) st
  pure st.2

/-- The literal `M_small` and the matrix for `t = 4`, lines 416 and 420. -/
def mSmall : List (List F) := [[5, 7, 1, 3], [4, 6, 1, 1], [1, 3, 5, 7], [1, 1, 4, 6]]

/-- `matrix.circulant(v)`: row `i` is `v` shifted right `i` times. -/
def circulant (v : List F) : List (List F) :=
  (List.range v.length).map fun i => (List.range v.length).map fun j => v.getD ((j + v.length - i) % v.length) 0

/-- `generate_matrix_full`, lines 409-431; the error exit is `none`. The block assignments of lines 422-427 are
modelled by their result: block `(i, j)` is `2 * M_small` for `i = j` and `M_small` otherwise. -/
def generateMatrixFull (t : Nat) : Option (List (List F)) :=
  if t = 2 then some (circulant [2, 1])
  else if t = 3 then some (circulant [2, 1, 1])
  else if t = 4 then some mSmall
  else if t % 4 = 0 then
    some ((List.range t).map fun i => (List.range t).map fun j =>
      let e := (mSmall.getD (i % 4) []).getD (j % 4) 0
      if i / 4 = j / 4 then 2 * e else e)
  else none

end ZkHash.Sage
