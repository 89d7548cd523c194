import Verif.Model.Utils

set_option autoImplicit false

/-!
# Model of `/repo/src/poseidon2/poseidon2_params.rs` and `/repo/src/poseidon2/poseidon2.rs`
-/

namespace ZkHash

variable {F : Type _} [Zero F] [One F] [Add F] [Sub F] [Mul F]

/-- `struct Poseidon2Params`, `src/poseidon2/poseidon2_params.rs` lines 6-17. -/
structure Poseidon2Params (F : Type _) where
  t : Nat
  d : Nat
  rounds_f_beginning : Nat
  rounds_p : Nat
  rounds_f_end : Nat
  rounds : Nat
  mat_internal_diag_m_1 : List F
  mat_internal : List (List F)
  round_constants : List (List F)

namespace Poseidon2Params

/-- `Poseidon2Params::new`, `src/poseidon2/poseidon2_params.rs` lines 24-49. -/
def new (dbg : Bool) (t d rounds_f rounds_p : Nat) (diag : List F) (mat_internal : List (List F))
    (round_constants : List (List F)) : Option (Poseidon2Params F) := do
  assertThat (d == 3 || d == 5 || d == 7 || d == 11)
  assertThat (rounds_f % 2 == 0)
  let r := rounds_f / 2
  let rounds ← uadd dbg rounds_f rounds_p
  pure { t, d, rounds_f_beginning := r, rounds_p, rounds_f_end := r, rounds
         mat_internal_diag_m_1 := diag, mat_internal, round_constants }

/-- Body of `for i in (0..rounds_p - 1).rev()`, `src/poseidon2/poseidon2_params.rs` lines 63-70 and (same text)
`src/poseidon/poseidon_params.rs` lines 113-120; the state is `(opt, tmp)`. -/
def equivStep (dbg : Bool) (round_constants minv : List (List F)) (rf : Nat)
    (st : List (List F) × List F) (i : Nat) : Option (List (List F) × List F) := do
  let inv_cip ← matVecMul dbg minv st.2
  let c0 ← inv_cip[0]?
  let opt ← setAt st.1 (i + 1) [c0]
  let index ← uadd dbg rf i
  let tmp ← round_constants[index]?
  let tmp ← (List.range' 1 (inv_cip.length - 1)).foldlM (fun tmp k => do
    let cur ← tmp[k]?
    let add ← inv_cip[k]?
    setAt tmp k (cur + add)) tmp
  pure (opt, tmp)

/-- `Poseidon2Params::equivalent_round_constants`, `src/poseidon2/poseidon2_params.rs` lines 52-75. The additions and
subtractions are on `usize`. -/
def equivalentRoundConstants [ArkInverse F] [DecidableEq F] (dbg : Bool)
    (round_constants mat_internal : List (List F)) (rounds_f_beginning rounds_p : Nat) :
    Option (List (List F)) := do
  let n ← uadd dbg rounds_p 1
  let opt : List (List F) := List.replicate n []
  let minv ← Utils.matInverse dbg mat_internal
  let sum ← uadd dbg rounds_f_beginning rounds_p
  let p_end ← usub dbg sum 1
  let tmp ← round_constants[p_end]?
  let hi ← usub dbg rounds_p 1
  let st ← ((List.range hi).reverse).foldlM
    (equivStep dbg round_constants minv rounds_f_beginning) (opt, tmp)
  let opt ← setAt st.1 0 st.2
  let opt0 ← opt[0]?
  setAt opt rounds_p (List.replicate opt0.length 0)

end Poseidon2Params

namespace Poseidon2

/-- `Poseidon2::sbox_p`, `src/poseidon2/poseidon2.rs` lines 59-86. -/
def sboxP (d : Nat) (input : F) : Option F :=
  let input2 := input * input
  match d with
  | 3 => some (input2 * input)
  | 5 => some (input2 * input2 * input)
  | 7 => some (input2 * input2 * input2 * input)
  | _ => none

/-- `Poseidon2::sbox`, `src/poseidon2/poseidon2.rs` lines 55-57. -/
def sbox (d : Nat) (input : List F) : Option (List F) := input.mapM (sboxP d)

/-- Loop body of `Poseidon2::matmul_m4`, `src/poseidon2/poseidon2.rs` lines 91-119. -/
def matmulM4Step (input : List F) (i : Nat) : Option (List F) := do
  let s := i * 4
  let x0 ← input[s]?
  let x1 ← input[s + 1]?
  let x2 ← input[s + 2]?
  let x3 ← input[s + 3]?
  let t_0 := x0 + x1
  let t_1 := x2 + x3
  let t_2 := (x1 + x1) + t_1
  let t_3 := (x3 + x3) + t_0
  let t_4 := ((t_1 + t_1) + (t_1 + t_1)) + t_3
  let t_5 := ((t_0 + t_0) + (t_0 + t_0)) + t_2
  let t_6 := t_3 + t_5
  let t_7 := t_2 + t_4
  let input ← setAt input s t_6
  let input ← setAt input (s + 1) t_5
  let input ← setAt input (s + 2) t_7
  setAt input (s + 3) t_4

/-- `Poseidon2::matmul_m4`, `src/poseidon2/poseidon2.rs` lines 88-120. -/
def matmulM4 (t : Nat) (input : List F) : Option (List F) :=
  (List.range (t / 4)).foldlM matmulM4Step input

/-- `v[i].add_assign(&x)`. -/
def addAt (l : List F) (i : Nat) (x : F) : Option (List F) := do
  let cur ← l[i]?
  setAt l i (cur + x)

/-- The `stored[l]` accumulation loop of `matmul_external`, `src/poseidon2/poseidon2.rs` lines 150-157: `stored` is
the array of four column sums. -/
def storedSums (t : Nat) (input : List F) : Option (List F) :=
  (List.range 4).mapM fun l => do
    let s ← input[l]?
    (List.range' 1 (t / 4 - 1)).foldlM (fun s j => do
      let x ← input[4 * j + l]?
      pure (s + x)) s

/-- `Poseidon2::matmul_external`, `src/poseidon2/poseidon2.rs` lines 122-166. -/
def matmulExternal (t : Nat) (input : List F) : Option (List F) :=
  match t with
  | 2 => do
      let x0 ← input[0]?
      let x1 ← input[1]?
      let sum := x0 + x1
      let input ← addAt input 0 sum
      addAt input 1 sum
  | 3 => do
      let x0 ← input[0]?
      let x1 ← input[1]?
      let x2 ← input[2]?
      let sum := x0 + x1 + x2
      let input ← addAt input 0 sum
      let input ← addAt input 1 sum
      addAt input 2 sum
  | 4 => matmulM4 t input
  | 8 | 12 | 16 | 20 | 24 => do
      let input ← matmulM4 t input
      let stored ← storedSums t input
      (List.range input.length).foldlM (fun input i => do
        let s ← stored[i % 4]?
        addAt input i s) input
  | _ => none

/-- `Poseidon2::matmul_internal`, `src/poseidon2/poseidon2.rs` lines 168-211. -/
def matmulInternal (t : Nat) (input : List F) (diag : List F) : Option (List F) :=
  match t with
  | 2 => do
      let x0 ← input[0]?
      let x1 ← input[1]?
      let sum := x0 + x1
      let input ← addAt input 0 sum
      let input ← setAt input 1 (x1 + x1)
      addAt input 1 sum
  | 3 => do
      let x0 ← input[0]?
      let x1 ← input[1]?
      let x2 ← input[2]?
      let sum := x0 + x1 + x2
      let input ← addAt input 0 sum
      let input ← addAt input 1 sum
      let input ← setAt input 2 (x2 + x2)
      addAt input 2 sum
  | 4 | 8 | 12 | 16 | 20 | 24 => do
      let x0 ← input[0]?
      let sum := ((input.drop 1).take (t - 1)).foldl (· + ·) x0
      (List.range input.length).foldlM (fun input i => do
        let cur ← input[i]?
        let m ← diag[i]?
        let input ← setAt input i (cur * m)
        addAt input i sum) input
  | _ => none

/-- `Poseidon2::add_rc`, `src/poseidon2/poseidon2.rs` lines 213-223 (`zip` truncates to the shorter list). -/
def addRc (input rc : List F) : List F := List.zipWith (· + ·) input rc

/-- Body of the two full-round loops, `src/poseidon2/poseidon2.rs` lines 34-38 and 47-51. -/
def fullRound (P : Poseidon2Params F) (state : List F) (r : Nat) : Option (List F) := do
  let rc ← P.round_constants[r]?
  let state := addRc state rc
  let state ← sbox P.d state
  matmulExternal P.t state

/-- Body of the partial-round loop, `src/poseidon2/poseidon2.rs` lines 41-45. -/
def partialRound (P : Poseidon2Params F) (state : List F) (r : Nat) : Option (List F) := do
  let rc ← get2 P.round_constants r 0
  let state ← addAt state 0 rc
  let x0 ← state[0]?
  let y0 ← sboxP P.d x0
  let state ← setAt state 0 y0
  matmulInternal P.t state P.mat_internal_diag_m_1

/-- `Poseidon2::permutation`, `src/poseidon2/poseidon2.rs` lines 25-53. -/
def permutation (dbg : Bool) (P : Poseidon2Params F) (input : List F) : Option (List F) := do
  assertThat (input.length == P.t)
  let state ← matmulExternal P.t input
  let state ← (List.range P.rounds_f_beginning).foldlM (fullRound P) state
  let p_end ← uadd dbg P.rounds_f_beginning P.rounds_p
  let state ← (List.range' P.rounds_f_beginning (p_end - P.rounds_f_beginning)).foldlM (partialRound P) state
  (List.range' p_end (P.rounds - p_end)).foldlM (fullRound P) state

/-- `MerkleTreeHash::compress` for `Poseidon2`, `src/poseidon2/poseidon2.rs` lines 226-230. -/
def compress (dbg : Bool) (P : Poseidon2Params F) (input : List F) : Option F := do
  let a ← input[0]?
  let b ← input[1]?
  let out ← permutation dbg P [a, b, 0]
  out[0]?

end Poseidon2

end ZkHash
