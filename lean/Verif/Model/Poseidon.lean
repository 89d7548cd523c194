import Verif.Model.Poseidon2

set_option autoImplicit false

/-!
# Model of `/repo/src/poseidon/poseidon_params.rs` and `/repo/src/poseidon/poseidon.rs`
-/

namespace ZkHash

variable {F : Type _} [Zero F] [One F] [Add F] [Sub F] [Mul F]

/-- `struct PoseidonParams`, `src/poseidon/poseidon_params.rs` lines 6-20. -/
structure PoseidonParams (F : Type _) where
  t : Nat
  d : Nat
  rounds_f_beginning : Nat
  rounds_p : Nat
  rounds_f_end : Nat
  rounds : Nat
  mds : List (List F)
  round_constants : List (List F)
  opt_round_constants : List (List F)
  w_hat : List (List F)
  v : List (List F)
  m_i : List (List F)

namespace PoseidonParams

/-- `PoseidonParams::mat_mat_mul`, `src/poseidon/poseidon_params.rs` lines 140-153. -/
def matMatMul (mat1 mat2 : List (List F)) : Option (List (List F)) := do
  let t := mat1.length
  (List.range t).foldlM (fun out row =>
    (List.range t).foldlM (fun out col1 =>
      (mat2.zipIdx).foldlM (fun out (m2, col2) => do
        let tmp ← get2 mat1 row col2
        let x ← m2[col1]?
        let cur ← get2 out row col1
        set2 out row col1 (cur + tmp * x)) out) out)
    (List.replicate t (List.replicate t (0 : F)))

/-- `m_mul[0][1..t]`, `src/poseidon/poseidon_params.rs` line 75: panics when `1 > t` or `t > len`. -/
def sliceFrom1 (row : List F) (t : Nat) : Option (List F) :=
  if 1 ≤ t ∧ t ≤ row.length then some ((row.take t).drop 1) else none

/-- The double loop that fills `m_hat` and `w`, `src/poseidon/poseidon_params.rs` lines 76-81; the state is
`(m_hat, w)`. -/
def fillHat (t : Nat) (m_mul : List (List F)) (st : List (List F) × List F) :
    Option (List (List F) × List F) :=
  (List.range' 1 (t - 1)).foldlM (fun st row => do
    let m_hat ← (List.range' 1 (t - 1)).foldlM (fun m_hat col => do
      let x ← get2 m_mul row col
      set2 m_hat (row - 1) (col - 1) x) st.1
    let x ← get2 m_mul row 0
    let w ← setAt st.2 (row - 1) x
    pure (m_hat, w)) st

/-- `m_i = m_mul.clone(); m_i[0][0] = 1; m_i[0][i] = m_i[i][0] = 0`, `src/poseidon/poseidon_params.rs`
lines 90-95. -/
def clearBorder (t : Nat) (m_mul : List (List F)) : Option (List (List F)) := do
  let m_i ← set2 m_mul 0 0 1
  (List.range' 1 (t - 1)).foldlM (fun m_i i => do
    let m_i ← set2 m_i 0 i 0
    set2 m_i i 0 0) m_i

/-- Loop state of `equivalent_matrices`: `w_hat`, `v`, `m_i`, `m_mul`. -/
structure EqState (F : Type _) where
  w_hat : List (List F)
  v : List (List F)
  m_i : List (List F)
  m_mul : List (List F)

/-- Body of `for _ in 0..rounds_p`, `src/poseidon/poseidon_params.rs` lines 70-97. In a release build with `t = 0`
the wrapped `t - 1` makes the `vec!` allocation panic; here the slice `m_mul[0][1..0]` panics instead. -/
def equivMatStep [ArkInverse F] [DecidableEq F] (dbg : Bool) (t : Nat) (mds_ : List (List F))
    (st : EqState F) : Option (EqState F) := do
  let t1 ← usub dbg t 1
  let m_hat : List (List F) := List.replicate t1 (List.replicate t1 0)
  let w : List F := List.replicate t1 0
  let m0 ← st.m_mul[0]?
  let v_ ← sliceFrom1 m0 t
  let hw ← fillHat t st.m_mul (m_hat, w)
  let m_hat_inv ← Utils.matInverse dbg hw.1
  let w_hat_ ← matVecMul dbg m_hat_inv hw.2
  let m_i ← clearBorder t st.m_mul
  let m_mul ← matMatMul mds_ m_i
  pure { w_hat := st.w_hat ++ [w_hat_], v := st.v ++ [v_], m_i, m_mul }

/-- `PoseidonParams::equivalent_matrices`, `src/poseidon/poseidon_params.rs` lines 58-100. The result is
`(m_i, v, w_hat)`. -/
def equivalentMatrices [ArkInverse F] [DecidableEq F] (dbg : Bool) (mds : List (List F)) (t rounds_p : Nat) :
    Option (List (List F) × List (List F) × List (List F)) := do
  let m_i : List (List F) := List.replicate t (List.replicate t 0)
  let mds_ ← Utils.matTranspose mds
  let st ← (List.range rounds_p).foldlM (fun st _ => equivMatStep dbg t mds_ st)
    { w_hat := [], v := [], m_i, m_mul := mds_ }
  let m_i ← Utils.matTranspose st.m_i
  pure (m_i, st.v, st.w_hat)

/-- `PoseidonParams::equivalent_round_constants`, `src/poseidon/poseidon_params.rs` lines 102-124 (the loop body is
the same text as in `Poseidon2Params`). -/
def equivalentRoundConstants [ArkInverse F] [DecidableEq F] (dbg : Bool)
    (round_constants mds : List (List F)) (rounds_f_beginning rounds_p : Nat) :
    Option (List (List F)) := do
  let opt : List (List F) := List.replicate rounds_p []
  let mds_inv ← Utils.matInverse dbg mds
  let sum ← uadd dbg rounds_f_beginning rounds_p
  let p_end ← usub dbg sum 1
  let tmp ← round_constants[p_end]?
  let hi ← usub dbg rounds_p 1
  let st ← ((List.range hi).reverse).foldlM
    (Poseidon2Params.equivStep dbg round_constants mds_inv rounds_f_beginning) (opt, tmp)
  setAt st.1 0 st.2

/-- `PoseidonParams::new`, `src/poseidon/poseidon_params.rs` lines 24-55. -/
def new [ArkInverse F] [DecidableEq F] (dbg : Bool) (t d rounds_f rounds_p : Nat)
    (mds round_constants : List (List F)) : Option (PoseidonParams F) := do
  assertThat (d == 3 || d == 5 || d == 7)
  assertThat (mds.length == t)
  assertThat (rounds_f % 2 == 0)
  let r := rounds_f / 2
  let rounds ← uadd dbg rounds_f rounds_p
  let (m_i, v, w_hat) ← equivalentMatrices dbg mds t rounds_p
  let opt ← equivalentRoundConstants dbg round_constants mds r rounds_p
  pure { t, d, rounds_f_beginning := r, rounds_p, rounds_f_end := r, rounds
         mds, round_constants, opt_round_constants := opt, w_hat, v, m_i }

end PoseidonParams

namespace Poseidon

/-- `Poseidon::sbox_p`, `src/poseidon/poseidon.rs` lines 82-109. -/
def sboxP (d : Nat) (input : F) : Option F :=
  let input2 := input * input
  match d with
  | 3 => some (input2 * input)
  | 5 => some (input2 * input2 * input)
  | 7 => some (input2 * input2 * input2 * input)
  | _ => none

/-- `Poseidon::sbox`, `src/poseidon/poseidon.rs` lines 78-80. -/
def sbox (d : Nat) (input : List F) : Option (List F) := input.mapM (sboxP d)

/-- `Poseidon::cheap_matmul`, `src/poseidon/poseidon.rs` lines 111-131. -/
def cheapMatmul (P : PoseidonParams F) (input : List F) (r : Nat) : Option (List F) := do
  let v ← P.v[r]?
  let w_hat ← P.w_hat[r]?
  let t := P.t
  let new_state : List F := List.replicate t 0
  let m00 ← get2 P.mds 0 0
  let x0 ← input[0]?
  let new_state ← setAt new_state 0 (m00 * x0)
  let new_state ← (List.range' 1 (t - 1)).foldlM (fun ns i => do
    let w ← w_hat[i - 1]?
    let x ← input[i]?
    let cur ← ns[0]?
    setAt ns 0 (cur + w * x)) new_state
  (List.range' 1 (t - 1)).foldlM (fun ns i => do
    let vi ← v[i - 1]?
    let x ← input[i]?
    setAt ns i (x0 * vi + x)) new_state

/-- `Poseidon::matmul`, `src/poseidon/poseidon.rs` lines 133-145. -/
def matmul (dbg : Bool) (input : List F) (mat : List (List F)) : Option (List F) := do
  let t := mat.length
  debugAssert dbg (t == input.length)
  (List.range t).foldlM (fun out row =>
    ((input.zipIdx).take t).foldlM (fun out (inp, col) => do
      let tmp ← get2 mat row col
      let cur ← out[row]?
      setAt out row (cur + tmp * inp)) out)
    (List.replicate t (0 : F))

/-- `Poseidon::add_rc`, `src/poseidon/poseidon.rs` lines 147-157 (`zip` truncates to the shorter list). -/
def addRc (input rc : List F) : List F := List.zipWith (· + ·) input rc

/-- Body of the full-round loops, `src/poseidon/poseidon.rs` lines 27-31, 45-49, 59-63, 70-74. -/
def fullRound (dbg : Bool) (P : PoseidonParams F) (state : List F) (r : Nat) : Option (List F) := do
  let rc ← P.round_constants[r]?
  let state := addRc state rc
  let state ← sbox P.d state
  matmul dbg state P.mds

/-- Body of the optimized partial-round loop, `src/poseidon/poseidon.rs` lines 36-44. -/
def partialRoundOpt (P : PoseidonParams F) (p_end : Nat) (state : List F) (r : Nat) : Option (List F) := do
  let x0 ← state[0]?
  let y0 ← sboxP P.d x0
  let state ← setAt state 0 y0
  let state ←
    if r < p_end - 1 then do
      let c ← get2 P.opt_round_constants (r + 1 - P.rounds_f_beginning) 0
      let cur ← state[0]?
      setAt state 0 (cur + c)
    else pure state
  cheapMatmul P state (p_end - r - 1)

/-- `Poseidon::permutation`, `src/poseidon/poseidon.rs` lines 22-51. -/
def permutation (dbg : Bool) (P : PoseidonParams F) (input : List F) : Option (List F) := do
  assertThat (input.length == P.t)
  let state ← (List.range P.rounds_f_beginning).foldlM (fullRound dbg P) input
  let p_end ← uadd dbg P.rounds_f_beginning P.rounds_p
  let rc ← P.opt_round_constants[0]?
  let state := addRc state rc
  let state ← matmul dbg state P.m_i
  let state ← (List.range' P.rounds_f_beginning (p_end - P.rounds_f_beginning)).foldlM
    (partialRoundOpt P p_end) state
  (List.range' p_end (P.rounds - p_end)).foldlM (fullRound dbg P) state

/-- Body of the plain partial-round loop, `src/poseidon/poseidon.rs` lines 65-69. -/
def partialRound (dbg : Bool) (P : PoseidonParams F) (state : List F) (r : Nat) : Option (List F) := do
  let rc ← P.round_constants[r]?
  let state := addRc state rc
  let x0 ← state[0]?
  let y0 ← sboxP P.d x0
  let state ← setAt state 0 y0
  matmul dbg state P.mds

/-- `Poseidon::permutation_not_opt`, `src/poseidon/poseidon.rs` lines 53-76. -/
def permutationNotOpt (dbg : Bool) (P : PoseidonParams F) (input : List F) : Option (List F) := do
  assertThat (input.length == P.t)
  let state ← (List.range P.rounds_f_beginning).foldlM (fullRound dbg P) input
  let p_end ← uadd dbg P.rounds_f_beginning P.rounds_p
  let state ← (List.range' P.rounds_f_beginning (p_end - P.rounds_f_beginning)).foldlM
    (partialRound dbg P) state
  (List.range' p_end (P.rounds - p_end)).foldlM (fullRound dbg P) state

/-- `MerkleTreeHash::compress` for `Poseidon`, `src/poseidon/poseidon.rs` lines 160-164. -/
def compress (dbg : Bool) (P : PoseidonParams F) (input : List F) : Option F := do
  let a ← input[0]?
  let b ← input[1]?
  let out ← permutation dbg P [a, b, 0]
  out[0]?

end Poseidon

end ZkHash
