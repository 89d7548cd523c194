import Verif.Model.Rust

set_option autoImplicit false

/-!
# Model of `/repo/src/fields/utils.rs` and of the field declarations `/repo/src/fields/*.rs`
-/

namespace ZkHash

namespace Fields

/-! ## Declared moduli and generators -/

/-- `src/fields/babybear.rs` line 5. -/
def babybearModulus : Nat := 2013265921
/-- `src/fields/babybear.rs` line 6. -/
def babybearGenerator : Nat := 31
/-- `src/fields/goldilocks.rs` line 5. -/
def goldilocksModulus : Nat := 18446744069414584321
/-- `src/fields/goldilocks.rs` line 6. -/
def goldilocksGenerator : Nat := 7
/-- `src/fields/bls12.rs` line 5. -/
def bls12Modulus : Nat :=
  52435875175126190479447740508185965837690552500527637822603658699938581184513
/-- `src/fields/bls12.rs` line 6. -/
def bls12Generator : Nat := 7
/-- `src/fields/bn256.rs` lines 7 and 13 (the same value under both features). -/
def bn256Modulus : Nat :=
  21888242871839275222246405745257275088548364400416034343698204186575808495617
/-- `src/fields/bn256.rs` lines 8 and 14. -/
def bn256Generator : Nat := 7
/-- `src/fields/pallas.rs` line 5. -/
def pallasModulus : Nat :=
  28948022309329048855892746252171976963363056481941560715954676764349967630337
/-- `src/fields/pallas.rs` line 6. -/
def pallasGenerator : Nat := 5
/-- `src/fields/vesta.rs` line 5. -/
def vestaModulus : Nat :=
  28948022309329048855892746252171976963363056481941647379679742748393362948097
/-- `src/fields/vesta.rs` line 6. -/
def vestaGenerator : Nat := 5

/-- The six declarations `(modulus, generator)` of `src/fields/{babybear,goldilocks,bls12,bn256,pallas,vesta}.rs`. -/
def declared : List (Nat × Nat) :=
  [(babybearModulus, babybearGenerator), (goldilocksModulus, goldilocksGenerator), (bls12Modulus, bls12Generator),
   (bn256Modulus, bn256Generator), (pallasModulus, pallasGenerator), (vestaModulus, vestaGenerator)]

/-! ## `from_hex` -/

/-- Value of one ASCII hex digit, as in the `hex` crate's `val` (`None` is its `InvalidHexCharacter`). -/
def hexVal (c : UInt8) : Option Nat :=
  let c := c.toNat
  if 48 ≤ c ∧ c ≤ 57 then some (c - 48)
  else if 65 ≤ c ∧ c ≤ 70 then some (c - 55)
  else if 97 ≤ c ∧ c ≤ 102 then some (c - 87)
  else none

/-- `Vec::from_hex` of the `hex` crate, used at `src/fields/utils.rs` line 10: an error (then `.expect` panics) on
odd length or on a character that is not a hex digit; otherwise one byte per two digits. -/
def hexDecode : List UInt8 → Option (List Nat)
  | [] => some []
  | [_] => none
  | a :: b :: rest => do
      let hi ← hexVal a
      let lo ← hexVal b
      let tl ← hexDecode rest
      pure ((hi * 16 + lo) :: tl)

/-- `&s[2..]` on the UTF-8 bytes of a `str`, `src/fields/utils.rs` line 10: panics if there are fewer than two bytes
or if byte 2 is a continuation byte (not a `char` boundary). -/
def strFrom2 (s : List UInt8) : Option (List UInt8) :=
  if s.length < 2 then none
  else match s.drop 2 with
    | [] => some []
    | c :: rest => if c.toNat / 64 = 2 then none else some (c :: rest)

/-- `from_hex`, `src/fields/utils.rs` lines 9-12, into the integers below the modulus `p`
(`from_be_bytes_mod_order` of ark-ff is modelled by its contract: big-endian value modulo `p`). -/
def fromHex (p : Nat) (s : List UInt8) : Option Nat := do
  let tail ← strFrom2 s
  let a ← hexDecode tail
  pure (a.foldl (fun acc byte => acc * 256 + byte) 0 % p)

/-! ## Random scalars -/

/-- `thread_rng` plus `F::rand`: the list of field elements the generator will still produce. A computation that
draws more elements than the list holds has no value (`none`); theorems quantify over all lists. -/
abbrev Draw (F α : Type) := StateT (List F) Option α

/-- `random_scalar`, `src/fields/utils.rs` lines 14-17. -/
def randomScalar {F : Type} : Draw F F := fun
  | [] => none
  | x :: rest => some (x, rest)

/-- `random_scalar_without_0`, `src/fields/utils.rs` lines 19-26: draw until the element is not zero. -/
def randomScalarWithout0 {F : Type} [Zero F] [DecidableEq F] : Draw F F := fun
  | [] => none
  | x :: rest => if x = 0 then randomScalarWithout0 rest else some (x, rest)

/-- `(0..n).map(|_| f()).collect()`. -/
def repeatDraw {F α : Type} (f : Draw F α) : Nat → Draw F (List α)
  | 0 => pure []
  | n + 1 => do
      let x ← f
      let xs ← repeatDraw f n
      pure (x :: xs)

end Fields

end ZkHash
