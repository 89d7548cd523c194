import Verif.Model.Sage

set_option autoImplicit false

/-!
# Model of the parameter generator in `/repo/poseidon2_rust_params.sage`

The script draws all constants from a Grain-style shift register. `bit_sequence` is a list of bits (`Bool` for the
integers 0 and 1), and is the state that is passed along. `none` is an exception, or a loop that does not end: the `while`
loops are least fixed points (`partial_fixpoint`), so they need no bound on the number of iterations.

The generator `grain_gen` is created at line 152, before `init_generator` sets `INIT_SEQUENCE`, but its body runs only
when the first bit is asked for, so it starts from the sequence set by `init_generator`; `warmUp` is the part before
its first `yield`.
-/

namespace ZkHash.Sage

/-- `bit_sequence[62] ^^ bit_sequence[51] ^^ bit_sequence[38] ^^ bit_sequence[23] ^^ bit_sequence[13] ^^ bit_sequence[0]`,
`poseidon2_rust_params.sage` lines 133, 138, 142, 145, 148. -/
def newBit (s : List Bool) : Option Bool := do
  let a ← s[62]?
  let b ← s[51]?
  let c ← s[38]?
  let d ← s[23]?
  let e ← s[13]?
  let f ← s[0]?
  pure (a ^^ b ^^ c ^^ d ^^ e ^^ f)

/-- `new_bit = ...; bit_sequence.pop(0); bit_sequence.append(new_bit)`, lines 133-135 and its repetitions: the new bit and
the new `bit_sequence`. -/
def shift (s : List Bool) : Option (Bool × List Bool) := do
  let new_bit ← newBit s
  pure (new_bit, s.tail ++ [new_bit])

/-- `for _ in range(0, 160)`, lines 132-135. -/
def warmUp (s : List Bool) : Option (List Bool) :=
  (List.range 160).foldlM (fun s _ => do
    let r ← shift s
    pure r.2) s

/-- `while new_bit == 0`, lines 141-147. -/
def skipZeros (new_bit : Bool) (s : List Bool) : Option (List Bool) :=
  if new_bit = false then do
    let r ← shift s
    let r ← shift r.2
    skipZeros r.1 r.2
  else some s
partial_fixpoint

/-- One turn of `while True`, lines 137-151: the bit that is yielded and the new `bit_sequence`. -/
def nextBit (s : List Bool) : Option (Bool × List Bool) := do
  let r ← shift s
  let s ← skipZeros r.1 r.2
  shift s

/-- `grain_random_bits(num_bits)`, lines 154-158 (for `num_bits = 0`, never used, the script raises an error and the model
gives 0). -/
def grainRandomBits (num_bits : Nat) (s : List Bool) : Option (Nat × List Bool) := do
  let r ← (List.range num_bits).foldlM (fun (st : List Bool × List Bool) _ => do
    let b ← nextBit st.2
    pure (st.1 ++ [b.1], b.2)) ([], s)
  pure (r.1.foldl (fun x b => 2 * x + b.toNat) 0, r.2)

/-- `bin(x)[2:].zfill(w)` as bits. -/
def binFill (w x : Nat) : List Bool :=
  let digits := if x = 0 then [false] else (List.range (x.log2 + 1)).reverse.map fun i => x.testBit i
  List.replicate (w - digits.length) false ++ digits

/-- `init_generator`, lines 160-171: the value of `INIT_SEQUENCE`. The script's globals `FIELD`, `SBOX`, `FIELD_SIZE` and
`NUM_CELLS` are arguments. -/
def initGenerator (FIELD SBOX FIELD_SIZE NUM_CELLS R_F R_P : Nat) : List Bool :=
  binFill 2 FIELD ++ binFill 4 SBOX ++ binFill 12 FIELD_SIZE ++ binFill 12 NUM_CELLS ++ binFill 10 R_F ++ binFill 10 R_P ++
    List.replicate 30 true

/-- `random_int = grain_random_bits(n); while random_int >= prime_number: random_int = grain_random_bits(n)`, lines
184-187. -/
def drawBelow (n prime_number : Nat) (s : List Bool) : Option (Nat × List Bool) := do
  let r ← grainRandomBits n s
  if r.1 ≥ prime_number then drawBelow n prime_number r.2 else some r
partial_fixpoint

/-- `generate_constants(field, n, t, R_F, R_P, prime_number)` for `field = 1`, lines 173-192. `R_F/2` is an exact fraction,
so the tests of line 190 are doubled. -/
def generateConstants (n t R_F R_P prime_number : Nat) (s : List Bool) : Option (List Nat × List Bool) :=
  (List.range (R_F * t + R_P)).foldlM (fun (st : List Nat × List Bool) i => do
    let r ← drawBelow n prime_number st.2
    let round_constants := st.1 ++ [r.1]
    if 2 * i ≥ R_F * t ∧ 2 * i < R_F * t + 2 * R_P then
      pure (round_constants ++ List.replicate (t - 1) 0, r.2)
    else
      pure (round_constants, r.2)) ([], s)

end ZkHash.Sage
