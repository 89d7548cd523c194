import Verif.Model.Rust

set_option autoImplicit false

/-!
# Model of `/repo/src/utils.rs`
-/

namespace ZkHash

variable {F : Type _} [Zero F] [One F] [Add F] [Sub F] [Mul F]

namespace Utils

/-- Body of the innermost loop of the first elimination phase, `src/utils.rs` lines 25-41
(`for col in 0..n` with `row`, `j` and `el` fixed); the state is the pair `(m, inv)`. -/
def elimCol (row j : Nat) (el : F) (st : List (List F) × List (List F)) (col : Nat) :
    Option (List (List F) × List (List F)) := do
  let m ←
    if col < j then
      set2 st.1 row col 0
    else do
      let tmp ← get2 st.1 j col
      let cur ← get2 st.1 row col
      set2 st.1 row col (cur - tmp * el)
  let inv ←
    if col > row then
      set2 st.2 row col 0
    else do
      let tmp ← get2 st.2 j col
      let cur ← get2 st.2 row col
      set2 st.2 row col (cur - tmp * el)
  pure (m, inv)

/-- Body of `for j in 0..row`, `src/utils.rs` lines 22-42. -/
def elimRow (n row : Nat) (st : List (List F) × List (List F)) (j : Nat) :
    Option (List (List F) × List (List F)) := do
  let el ← get2 st.1 row j
  (List.range n).foldlM (elimCol row j el) st

/-- Body of the normalisation loop `for col in 0..n`, `src/utils.rs` lines 45-54. -/
def normCol (row : Nat) (elInv : F) (st : List (List F) × List (List F)) (col : Nat) :
    Option (List (List F) × List (List F)) :=
  match compare col row with
  | .lt => do
      let cur ← get2 st.2 row col
      let inv ← set2 st.2 row col (cur * elInv)
      pure (st.1, inv)
  | .eq => do
      let m ← set2 st.1 row col 1
      let cur ← get2 st.2 row col
      let inv ← set2 st.2 row col (cur * elInv)
      pure (m, inv)
  | .gt => do
      let cur ← get2 st.1 row col
      let m ← set2 st.1 row col (cur * elInv)
      pure (m, st.2)

/-- Body of the first `for row in 0..n`, `src/utils.rs` lines 21-55. -/
def phase1Row [ArkInverse F] (n : Nat) (st : List (List F) × List (List F)) (row : Nat) :
    Option (List (List F) × List (List F)) := do
  let st ← (List.range row).foldlM (elimRow n row) st
  let el ← get2 st.1 row row
  let elInv ← ArkInverse.inverse el          -- `.inverse().unwrap()`
  (List.range n).foldlM (normCol row elInv) st

/-- Body of the innermost loop of the second phase, `src/utils.rs` lines 62-74. The write to `m` is under
`#[cfg(debug_assertions)]`. -/
def backCol (dbg : Bool) (row j : Nat) (el : F) (st : List (List F) × List (List F)) (col : Nat) :
    Option (List (List F) × List (List F)) := do
  let m ← if dbg && decide (col ≥ j) then set2 st.1 row col 0 else pure st.1
  let tmp ← get2 st.2 j col
  let cur ← get2 st.2 row col
  let inv ← set2 st.2 row col (cur - tmp * el)
  pure (m, inv)

/-- Body of `for j in (row + 1..n).rev()`, `src/utils.rs` lines 59-75. -/
def backRow (dbg : Bool) (n row : Nat) (st : List (List F) × List (List F)) (j : Nat) :
    Option (List (List F) × List (List F)) := do
  let el ← get2 st.1 row j
  (List.range n).foldlM (backCol dbg row j el) st

/-- Body of `for row in (0..n).rev()`, `src/utils.rs` lines 58-76. -/
def phase2Row (dbg : Bool) (n : Nat) (st : List (List F) × List (List F)) (row : Nat) :
    Option (List (List F) × List (List F)) :=
  ((List.range' (row + 1) (n - (row + 1))).reverse).foldlM (backRow dbg n row) st

/-- The debug-only final check that `m` is the identity, `src/utils.rs` lines 78-89: every entry of every row of
`m` (rows may be longer than `n`) is compared. -/
def checkIdentity [DecidableEq F] (dbg : Bool) (m : List (List F)) : Option Unit :=
  debugAssert dbg ((m.zipIdx).all fun (mrow, row) =>
    (mrow.zipIdx).all fun (v, col) => if row = col then decide (v = 1) else decide (v = 0))

/-- The initial `inv`: an `n x n` zero matrix with ones written on the diagonal, `src/utils.rs` lines 15-18. -/
def initInv (n : Nat) : List (List F) :=
  (List.replicate n (List.replicate n (0 : F))).zipIdx.map fun (invi, i) => invi.set i 1

/-- `utils::mat_inverse`, `src/utils.rs` lines 10-92. -/
def matInverse [ArkInverse F] [DecidableEq F] (dbg : Bool) (mat : List (List F)) :
    Option (List (List F)) := do
  let n := mat.length
  let row0 ← mat[0]?
  assertThat (row0.length == n)
  let st ← (List.range n).foldlM (phase1Row n) (mat, initInv n)
  let st ← ((List.range n).reverse).foldlM (phase2Row dbg n) st
  checkIdentity dbg st.1
  pure st.2

/-- `utils::mat_transpose`, `src/utils.rs` lines 94-105. -/
def matTranspose (mat : List (List F)) : Option (List (List F)) := do
  let rows := mat.length
  let row0 ← mat[0]?
  let cols := row0.length
  (mat.zipIdx).foldlM (fun tr (matrow, row) =>
    (List.range cols).foldlM (fun tr col => do
      let v ← matrow[col]?
      set2 tr col row v) tr)
    (List.replicate cols (List.replicate rows (0 : F)))

end Utils

/-- The product loop shared, character for character, by `PoseidonParams::mat_vec_mul`
(`src/poseidon/poseidon_params.rs` lines 126-138) and `Poseidon2Params::mat_vec_mul`
(`src/poseidon2/poseidon2_params.rs` lines 77-89). -/
def matVecMul (dbg : Bool) (mat : List (List F)) (input : List F) : Option (List F) := do
  let t := mat.length
  debugAssert dbg (t == input.length)
  (List.range t).foldlM (fun out row =>
    (input.zipIdx).foldlM (fun out (inp, col) => do
      let tmp ← get2 mat row col
      let cur ← out[row]?
      setAt out row (cur + tmp * inp)) out)
    (List.replicate t (0 : F))

end ZkHash
