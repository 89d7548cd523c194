import Verif.Model.Fields

set_option autoImplicit false

/-!
# Model of `/repo/src/neptune/neptune_params.rs` and `/repo/src/neptune/neptune.rs`
-/

namespace ZkHash

open Fields

variable {F : Type} [Zero F] [One F] [Add F] [Sub F] [Mul F]

/-- `struct NeptuneParams`, `src/neptune/neptune_params.rs` lines 6-20. The arrays `[S; 3]` are triples. -/
structure NeptuneParams (F : Type _) where
  t : Nat
  d : Nat
  rounds_f_beginning : Nat
  rounds_p : Nat
  rounds_f_end : Nat
  rounds : Nat
  round_constants : List (List F)
  m_e : List (List F)
  mu : List F
  abc : F × F × F
  a_ : F × F × F

namespace NeptuneParams

/-- Loop of `NeptuneParams::circ_mat`, `src/neptune/neptune_params.rs` lines 160-163. -/
def circRows : Nat → List F → Option (List (List F))
  | 0, _ => some []
  | k + 1, rot => do
      let rot ← rotateRight1 rot
      let rest ← circRows k rot
      pure (rot :: rest)

/-- `NeptuneParams::circ_mat`, `src/neptune/neptune_params.rs` lines 155-165. -/
def circMat (row : List F) : Option (List (List F)) := do
  let rest ← circRows (row.length - 1) row
  pure (row :: rest)

/-- The double loops writing `M'` (`off = 0`) and `M''` (`off = 1`) into `mat`,
`src/neptune/neptune_params.rs` lines 140-151. -/
def fillParity (t_ off : Nat) (mat m : List (List F)) : Option (List (List F)) :=
  (List.range t_).foldlM (fun mat row =>
    (List.range t_).foldlM (fun mat col => do
      let x ← get2 m row col
      set2 mat (2 * row + off) (2 * col + off) x) mat) mat

/-- The two half-size matrices `m_` and `m__` of `NeptuneParams::instantiate_external_matrix`,
`src/neptune/neptune_params.rs` lines 102-137. -/
def externalBlocks [NatCast F] (t : Nat) : Draw F (List (List F) × List (List F)) :=
  if t = 4 then do
    let m_ ← StateT.lift (circMat [((2 : Nat) : F), 1])
    let m__ ← StateT.lift (circMat [1, ((2 : Nat) : F)])
    pure (m_, m__)
  else if t = 8 then do
    let m_ ← StateT.lift (circMat [((3 : Nat) : F), ((2 : Nat) : F), ((1 : Nat) : F), ((1 : Nat) : F)])
    let m__ ← StateT.lift (circMat [((1 : Nat) : F), ((1 : Nat) : F), ((2 : Nat) : F), ((3 : Nat) : F)])
    pure (m_, m__)
  else do
    let m_ ← repeatDraw (repeatDraw randomScalar (t / 2)) (t / 2)
    let m__ ← repeatDraw (repeatDraw randomScalar (t / 2)) (t / 2)
    pure (m_, m__)

/-- `NeptuneParams::instantiate_external_matrix`, `src/neptune/neptune_params.rs` lines 98-153. -/
def instantiateExternalMatrix [NatCast F] (t : Nat) : Draw F (List (List F)) := do
  let blocks ← externalBlocks t
  let mat ← StateT.lift (fillParity (t / 2) 0 (List.replicate t (List.replicate t 0)) blocks.1)
  StateT.lift (fillParity (t / 2) 1 mat blocks.2)

/-- `NeptuneParams::instantiate_mu`, `src/neptune/neptune_params.rs` lines 87-96. -/
def instantiateMu [DecidableEq F] (t : Nat) : Draw F (List F) :=
  repeatDraw (do
    let tmp ← randomScalarWithout0
    pure (tmp - 1)) t

/-- `NeptuneParams::new`, `src/neptune/neptune_params.rs` lines 25-60, with `instantiate_rc` (lines 71-79) and
`instantiate_abc` (lines 81-85). -/
def new [NatCast F] [DecidableEq F] (dbg : Bool) (t d rounds_f rounds_p : Nat) : Draw F (NeptuneParams F) := do
  StateT.lift (assertThat (d == 3 || d == 5 || d == 7))
  StateT.lift (assertThat (rounds_f % 2 == 0))
  StateT.lift (assertThat (t % 2 == 0))
  let r := rounds_f / 2
  let rounds ← StateT.lift (uadd dbg rounds_f rounds_p)
  let round_constants ← repeatDraw (repeatDraw randomScalar t) rounds
  let m_e ← instantiateExternalMatrix t
  let mu ← instantiateMu t
  let gamma ← randomScalar
  let abc : F × F × F := (1, 1, gamma)
  let a0 := (1 : F) * 1
  let a1 := (1 : F) + 1
  let a_ : F × F × F := (a0, a1 + 1, a1 + a1)
  pure { t, d, rounds_f_beginning := r, rounds_p, rounds_f_end := r, rounds, round_constants, m_e, mu, abc, a_ }

end NeptuneParams

namespace Neptune

/-- `Neptune::sbox_d`, `src/neptune/neptune.rs` lines 47-74. -/
def sboxD (d : Nat) (input : F) : Option F :=
  let input2 := input * input
  match d with
  | 3 => some (input2 * input)
  | 5 => some (input2 * input2 * input)
  | 7 => some (input2 * input2 * input2 * input)
  | _ => none

/-- `Neptune::external_sbox_prime`, `src/neptune/neptune.rs` lines 76-117; `gamma` is `abc[2]`. -/
def externalSboxPrime (gamma x1 x2 : F) : F × F :=
  let zi := x1 - x2
  let zib := zi * zi
  -- first terms
  let sum := x1 + x2
  let y1 := sum + x1
  let y2 := sum + x2 + x2
  -- middle terms
  let tmp1 := zib + zib
  let tmp2 := tmp1
  let tmp1 := tmp1 + zib
  let tmp2 := tmp2 + tmp2
  let y1 := y1 + tmp1
  let y2 := y2 + tmp2
  -- third terms
  let tmp := zi - x2
  let tmp := tmp - zib
  let tmp := tmp + gamma
  let tmp := tmp * tmp
  (y1 + tmp, y2 + tmp)

/-- `Neptune::external_sbox`, `src/neptune/neptune.rs` lines 119-129. -/
def externalSbox (gamma : F) (input : List F) : Option (List F) :=
  (List.range (input.length / 2)).foldlM (fun output i => do
    let x1 ← input[2 * i]?
    let x2 ← input[2 * i + 1]?
    let out := externalSboxPrime gamma x1 x2
    let output ← setAt output (2 * i) out.1
    setAt output (2 * i + 1) out.2) (List.replicate input.length (0 : F))

/-- `Neptune::internal_sbox`, `src/neptune/neptune.rs` lines 131-135. -/
def internalSbox (d : Nat) (input : List F) : Option (List F) := do
  let x0 ← input[0]?
  let y0 ← sboxD d x0
  setAt input 0 y0

/-- `v[i].add_assign(&x)`. -/
def addAt (l : List F) (i : Nat) (x : F) : Option (List F) := do
  let cur ← l[i]?
  setAt l i (cur + x)

/-- `Neptune::external_matmul_4`, `src/neptune/neptune.rs` lines 137-152. -/
def externalMatmul4 (input : List F) : Option (List F) := do
  let output ← swapAt input 1 3
  let x0 ← input[0]?
  let x2 ← input[2]?
  let sum1 := x0 + x2
  let x1 ← input[1]?
  let x3 ← input[3]?
  let sum2 := x1 + x3
  let output ← addAt output 0 sum1
  let output ← addAt output 1 sum2
  let output ← addAt output 2 sum1
  addAt output 3 sum2

/-- `iter().step_by(2)`: the elements at even positions. -/
def stepBy2 {α : Type _} : List α → List α
  | [] => []
  | [x] => [x]
  | x :: _ :: rest => x :: stepBy2 rest

/-- `slice::rotate_left(2)`: panics when `2 > len`. -/
def rotateLeft2 {α : Type _} (l : List α) : Option (List α) :=
  if 2 ≤ l.length then some (l.drop 2 ++ l.take 2) else none

/-- `Neptune::external_matmul_8`, `src/neptune/neptune.rs` lines 154-190. -/
def externalMatmul8 (input : List F) : Option (List F) := do
  let output ← swapAt input 1 7
  let output ← swapAt output 3 5
  let x0 ← input[0]?
  let x1 ← input[1]?
  let sum1 := ((stepBy2 input).drop 1).foldl (· + ·) x0
  let sum2 := ((stepBy2 (input.drop 1)).drop 1).foldl (· + ·) x1
  let output_rot ← rotateLeft2 output
  let output := List.zipWith (fun (p : F × Nat) rot =>
    let el := p.1 + p.1 + rot
    if p.2 % 2 = 0 then el + sum1 else el + sum2) output.zipIdx output_rot
  swapAt output 3 7

/-- `Neptune::external_matmul`, `src/neptune/neptune.rs` lines 192-217. -/
def externalMatmul (P : NeptuneParams F) (input : List F) : Option (List F) :=
  let t := P.t
  if t = 4 then externalMatmul4 input
  else if t = 8 then externalMatmul8 input
  else
    (List.range (t / 2)).foldlM (fun out row =>
      (List.range (t / 2)).foldlM (fun out col => do
        let e ← get2 P.m_e (2 * row) (2 * col)
        let xe ← input[2 * col]?
        let out ← addAt out (2 * row) (e * xe)
        let o ← get2 P.m_e (2 * row + 1) (2 * col + 1)
        let xo ← input[2 * col + 1]?
        addAt out (2 * row + 1) (o * xo)) out) (List.replicate t (0 : F))

/-- `Neptune::internal_matmul`, `src/neptune/neptune.rs` lines 219-231: the `zip` leaves entries beyond
`mu.len()` unchanged. -/
def internalMatmul (P : NeptuneParams F) (input : List F) : Option (List F) := do
  let x0 ← input[0]?
  let sum := (input.drop 1).foldl (· + ·) x0
  pure (List.zipWith (fun o mu => o * mu + sum) input P.mu ++ input.drop P.mu.length)

/-- `Neptune::add_rc`, `src/neptune/neptune.rs` lines 35-45. -/
def addRc (input rc : List F) : List F := List.zipWith (· + ·) input rc

/-- `Neptune::external_round`, `src/neptune/neptune.rs` lines 23-27. -/
def externalRound (P : NeptuneParams F) (input : List F) (r : Nat) : Option (List F) := do
  let output ← externalSbox P.abc.2.2 input
  let output ← externalMatmul P output
  let rc ← P.round_constants[r]?
  pure (addRc output rc)

/-- `Neptune::internal_round`, `src/neptune/neptune.rs` lines 29-33. -/
def internalRound (P : NeptuneParams F) (input : List F) (r : Nat) : Option (List F) := do
  let output ← internalSbox P.d input
  let output ← internalMatmul P output
  let rc ← P.round_constants[r]?
  pure (addRc output rc)

/-- `Neptune::permutation`, `src/neptune/neptune.rs` lines 233-252. -/
def permutation (dbg : Bool) (P : NeptuneParams F) (input : List F) : Option (List F) := do
  assertThat (input.length == P.t)
  let state ← externalMatmul P input
  let state ← (List.range P.rounds_f_beginning).foldlM (externalRound P) state
  let p_end ← uadd dbg P.rounds_f_beginning P.rounds_p
  let state ← (List.range' P.rounds_f_beginning (p_end - P.rounds_f_beginning)).foldlM (internalRound P) state
  (List.range' p_end (P.rounds - p_end)).foldlM (externalRound P) state

/-- `MerkleTreeHash::compress` for `Neptune`, `src/neptune/neptune.rs` lines 255-264. -/
def compress (dbg : Bool) (P : NeptuneParams F) (input : List F) : Option F := do
  let a ← input[0]?
  let b ← input[1]?
  let out ← permutation dbg P [a, b, 0, 0]
  out[0]?

end Neptune

end ZkHash
