set_option autoImplicit false

/-!
# Reading the program that the parameter script prints

A reader for the fragment of Rust in which the script prints: blanks and newlines between tokens are skipped, a table is a
`vec![..]` of `from_hex("..")` literals or of such rows, each followed by a comma, and the names of the tables carry the
width. It returns the string of every literal; what a literal means is up to `from_hex`.
-/

namespace ZkHash.Spec.Reader

def bytes (s : String) : List UInt8 := s.toList.map fun c => UInt8.ofNat c.toNat

/-- Blank or newline. -/
def blank (c : UInt8) : Bool := c == 32 || c == 10

def digit (c : UInt8) : Bool := 48 ≤ c.toNat && c.toNat ≤ 57

/-- Skip blanks, then the token. -/
def expect (token : String) (input : List UInt8) : Option (List UInt8) :=
  let input := input.dropWhile blank
  if (bytes token).isPrefixOf input then some (input.drop (bytes token).length) else none

/-- Skip blanks, then a decimal number. -/
def number (input : List UInt8) : Option (Nat × List UInt8) :=
  let input := input.dropWhile blank
  let ds := input.takeWhile digit
  if ds.isEmpty then none else some (ds.foldl (fun n c => 10 * n + (c.toNat - 48)) 0, input.dropWhile digit)

/-- A given number. -/
def exactly (n : Nat) (input : List UInt8) : Option (List UInt8) := do
  let (m, rest) ← number input
  if m = n then some rest else none

/-- `from_hex("s1"), from_hex("s2"), ..., ]`: the strings. The first argument bounds the number of elements. -/
def literals : Nat → List UInt8 → Option (List (List UInt8) × List UInt8)
  | 0, _ => none
  | fuel + 1, input =>
    match expect "]" input with
    | some rest => some ([], rest)
    | none => do
      let rest ← expect "from_hex(\"" input
      let s := rest.takeWhile (· != 34)
      let rest ← expect "\")," (rest.dropWhile (· != 34))
      let (ss, rest) ← literals fuel rest
      pure (s :: ss, rest)

/-- `vec![ literals ], vec![ literals ], ..., ]`. -/
def rows : Nat → List UInt8 → Option (List (List (List UInt8)) × List UInt8)
  | 0, _ => none
  | fuel + 1, input =>
    match expect "]" input with
    | some rest => some ([], rest)
    | none => do
      let rest ← expect "vec![" input
      let (row, rest) ← literals rest.length rest
      let rest ← expect "," rest
      let (rs, rest) ← rows fuel rest
      pure (row :: rs, rest)

/-- The contents of the printed program. -/
structure Program where
  t : Nat
  d : Nat
  rounds_f : Nat
  rounds_p : Nat
  /-- the tables that the constructor call refers to -/
  diag_m_1 : List (List UInt8)
  rc : List (List (List UInt8))
  internal : List (List (List UInt8))
  state_in : List (List UInt8)
  state_out : List (List UInt8)

/-- A whole program. The round numbers of the first line and of the constructor call must agree, and so must the widths in
all names. -/
def program (input : List UInt8) : Option Program := do
  let rest ← expect "+++ R_F =" input
  let (rounds_f, rest) ← number rest
  let rest ← expect ", R_P =" rest
  let (rounds_p, rest) ← number rest
  let rest ← expect "+++" rest
  let rest ← expect "use super::poseidon::PoseidonParams;" rest
  let rest ← expect "use bellman_ce::pairing::{bls12_381::Bls12, ff::ScalarEngine, from_hex};" rest
  let rest ← expect "type Scalar = <Bls12 as ScalarEngine>::Fr;" rest
  let rest ← expect "use lazy_static::lazy_static;" rest
  let rest ← expect "use std::sync::Arc;" rest
  let rest ← expect "lazy_static! {" rest
  let rest ← expect "pub static ref MAT_DIAG" rest
  let (t, rest) ← number rest
  let rest ← expect "_M_1: Vec<Scalar> = vec![" rest
  let (diag_m_1, rest) ← literals rest.length rest
  let rest ← expect ";" rest
  let rest ← expect "pub static ref MAT_INTERNAL" rest
  let rest ← exactly t rest
  let rest ← expect ": Vec<Vec<Scalar>> = vec![" rest
  let (internal, rest) ← rows rest.length rest
  let rest ← expect ";" rest
  let rest ← expect "pub static ref RC" rest
  let rest ← exactly t rest
  let rest ← expect ": Vec<Vec<Scalar>> = vec![" rest
  let (rc, rest) ← rows rest.length rest
  let rest ← expect ";" rest
  let rest ← expect "pub static ref POSEIDON_" rest
  let rest ← exactly t rest
  let rest ← expect "_PARAMS: Arc<PoseidonParams<Scalar>> = Arc::new(PoseidonParams::new(" rest
  let rest ← exactly t rest
  let rest ← expect "," rest
  let (d, rest) ← number rest
  let rest ← expect "," rest
  let rest ← exactly rounds_f rest
  let rest ← expect "," rest
  let rest ← exactly rounds_p rest
  let rest ← expect ", &MAT_DIAG" rest
  let rest ← exactly t rest
  let rest ← expect "_M_1, &RC" rest
  let rest ← exactly t rest
  let rest ← expect "));" rest
  let rest ← expect "}" rest
  let rest ← expect "vec![" rest
  let (state_in, rest) ← literals rest.length rest
  let rest ← expect "," rest
  let rest ← expect "]" rest
  let rest ← expect ";" rest
  let rest ← expect "vec![" rest
  let (state_out, rest) ← literals rest.length rest
  let rest ← expect "," rest
  let rest ← expect "]" rest
  let rest ← expect ";" rest
  if rest.all blank then some ⟨t, d, rounds_f, rounds_p, diag_m_1, rc, internal, state_in, state_out⟩ else none

end ZkHash.Spec.Reader
