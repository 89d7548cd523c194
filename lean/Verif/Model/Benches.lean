import Verif.Model.Client

set_option autoImplicit false

/-!
# The benchmark programs of the repository

Generated by `tools/gen_benches.py` from `benches/*.rs`. A benchmark constructs permutations over some parameter sets and
then, for each of them, lets Criterion call one method again and again on one input; Criterion chooses the numbers.
-/

namespace ZkHash.Benches

open Statics Client

/-- A benchmark function: its parameter sets, the method, and for the Merkle trees the logarithm of the number of leaves. -/
structure Bench where
  statics : List Name
  op : Op
  logSetSize : Option Nat := none

/-- The argument of the measured call: `(0..t).map(|i| Scalar::from(i as u64)).collect()`, e.g. `benches/plain_bn256.rs`
line 13, or `sample_set(1 << log_set_size)`, e.g. `benches/mt_bn256.rs` lines 11-13 and 18. -/
def Bench.call (b : Bench) (i : Name) : Call :=
  match b.logSetSize with
  | none => ⟨i, b.op, List.range (width i)⟩
  | some l => ⟨i, b.op, List.range (1 <<< l)⟩

/-- A benchmark function as a program; `iters i` is the number of calls that Criterion makes on parameter set `i`. -/
def Bench.program (b : Bench) (iters : Name → Nat) : List Call :=
  b.statics.map (fun i => ⟨i, .new, []⟩) ++ b.statics.flatMap fun i => List.replicate (iters i) (b.call i)

/-- `fn poseidon`, `benches/mt_bls12.rs` lines 31-44: `POSEIDON_BLS_3_PARAMS`. -/
def mt_bls12_poseidon : Bench :=
  { statics := [.poseidon ⟨7, by decide⟩]
    op := .accumulate
    logSetSize := some 20 }

/-- `fn poseidon2`, `benches/mt_bls12.rs` lines 46-59: `POSEIDON2_BLS_3_PARAMS`. -/
def mt_bls12_poseidon2 : Bench :=
  { statics := [.poseidon2 ⟨7, by decide⟩]
    op := .accumulate
    logSetSize := some 20 }

/-- `fn gmimc`, `benches/mt_bls12.rs` lines 76-89: `GMIMC_BLS_3_PARAMS`. -/
def mt_bls12_gmimc : Bench :=
  { statics := [.gmimc ⟨7, by decide⟩]
    op := .accumulate
    logSetSize := some 20 }

/-- `fn neptune`, `benches/mt_bls12.rs` lines 61-74: `NEPTUNE_BLS_4_PARAMS`. -/
def mt_bls12_neptune : Bench :=
  { statics := [.neptune ⟨1, by decide⟩]
    op := .accumulate
    logSetSize := some 20 }

/-- The program `benches/mt_bls12.rs`: `fn criterion_benchmark_mt_bls`, lines 91-100. -/
def mt_bls12 : List Bench :=
  [mt_bls12_poseidon,
   mt_bls12_poseidon2,
   mt_bls12_gmimc,
   mt_bls12_neptune]

/-- `fn poseidon`, `benches/mt_bn256.rs` lines 15-28: `POSEIDON_BN_PARAMS`. -/
def mt_bn256_poseidon : Bench :=
  { statics := [.poseidon ⟨10, by decide⟩]
    op := .accumulate
    logSetSize := some 20 }

/-- `fn poseidon2`, `benches/mt_bn256.rs` lines 30-43: `POSEIDON2_BN256_PARAMS`. -/
def mt_bn256_poseidon2 : Bench :=
  { statics := [.poseidon2 ⟨10, by decide⟩]
    op := .accumulate
    logSetSize := some 20 }

/-- `fn neptune`, `benches/mt_bn256.rs` lines 45-58: `NEPTUNE_BN_PARAMS`. -/
def mt_bn256_neptune : Bench :=
  { statics := [.neptune ⟨0, by decide⟩]
    op := .accumulate
    logSetSize := some 20 }

/-- The program `benches/mt_bn256.rs`: `fn criterion_benchmark_mt_bn`, lines 60-68. -/
def mt_bn256 : List Bench :=
  [mt_bn256_poseidon,
   mt_bn256_poseidon2,
   mt_bn256_neptune]

/-- `fn poseidon_babybear`, `benches/plain_babybear.rs` lines 28-43: `POSEIDON_BABYBEAR_16_PARAMS`, `POSEIDON_BABYBEAR_24_PARAMS`. -/
def plain_babybear_poseidon_babybear : Bench :=
  { statics := [.poseidon ⟨4, by decide⟩, .poseidon ⟨5, by decide⟩]
    op := .permutation }

/-- `fn poseidon2_babybear`, `benches/plain_babybear.rs` lines 45-61: `POSEIDON2_BABYBEAR_16_PARAMS`, `POSEIDON2_BABYBEAR_24_PARAMS`. -/
def plain_babybear_poseidon2_babybear : Bench :=
  { statics := [.poseidon2 ⟨4, by decide⟩, .poseidon2 ⟨5, by decide⟩]
    op := .permutation }

/-- `fn neptune_babybear`, `benches/plain_babybear.rs` lines 63-79: `NEPTUNE_BABYBEAR_16_PARAMS`, `NEPTUNE_BABYBEAR_24_PARAMS`. -/
def plain_babybear_neptune_babybear : Bench :=
  { statics := [.neptune ⟨7, by decide⟩, .neptune ⟨8, by decide⟩]
    op := .permutation }

/-- `fn gmimc_babybear`, `benches/plain_babybear.rs` lines 81-97: `GMIMC_BABYBEAR_16_PARAMS`, `GMIMC_BABYBEAR_24_PARAMS`. -/
def plain_babybear_gmimc_babybear : Bench :=
  { statics := [.gmimc ⟨4, by decide⟩, .gmimc ⟨5, by decide⟩]
    op := .permutationNotOpt }

/-- `fn gmimc_opt_babybear`, `benches/plain_babybear.rs` lines 99-115: `GMIMC_BABYBEAR_16_PARAMS`, `GMIMC_BABYBEAR_24_PARAMS`. -/
def plain_babybear_gmimc_opt_babybear : Bench :=
  { statics := [.gmimc ⟨4, by decide⟩, .gmimc ⟨5, by decide⟩]
    op := .permutation }

/-- The program `benches/plain_babybear.rs`: `fn criterion_benchmark_plain_babybear`, lines 117-123. -/
def plain_babybear : List Bench :=
  [plain_babybear_poseidon_babybear,
   plain_babybear_poseidon2_babybear,
   plain_babybear_neptune_babybear,
   plain_babybear_gmimc_babybear,
   plain_babybear_gmimc_opt_babybear]

/-- `fn poseidon`, `benches/plain_bls12.rs` lines 29-46: `POSEIDON_BLS_2_PARAMS`, `POSEIDON_BLS_3_PARAMS`, `POSEIDON_BLS_4_PARAMS`, `POSEIDON_BLS_8_PARAMS`. -/
def plain_bls12_poseidon : Bench :=
  { statics := [.poseidon ⟨6, by decide⟩, .poseidon ⟨7, by decide⟩, .poseidon ⟨8, by decide⟩, .poseidon ⟨9, by decide⟩]
    op := .permutation }

/-- `fn poseidon2`, `benches/plain_bls12.rs` lines 48-66: `POSEIDON2_BLS_2_PARAMS`, `POSEIDON2_BLS_3_PARAMS`, `POSEIDON2_BLS_4_PARAMS`, `POSEIDON2_BLS_8_PARAMS`. -/
def plain_bls12_poseidon2 : Bench :=
  { statics := [.poseidon2 ⟨6, by decide⟩, .poseidon2 ⟨7, by decide⟩, .poseidon2 ⟨8, by decide⟩, .poseidon2 ⟨9, by decide⟩]
    op := .permutation }

/-- `fn gmimc`, `benches/plain_bls12.rs` lines 68-86: `GMIMC_BLS_2_PARAMS`, `GMIMC_BLS_3_PARAMS`, `GMIMC_BLS_4_PARAMS`, `GMIMC_BLS_8_PARAMS`. -/
def plain_bls12_gmimc : Bench :=
  { statics := [.gmimc ⟨6, by decide⟩, .gmimc ⟨7, by decide⟩, .gmimc ⟨8, by decide⟩, .gmimc ⟨10, by decide⟩]
    op := .permutationNotOpt }

/-- `fn gmimc_opt`, `benches/plain_bls12.rs` lines 88-106: `GMIMC_BLS_2_PARAMS`, `GMIMC_BLS_3_PARAMS`, `GMIMC_BLS_4_PARAMS`, `GMIMC_BLS_8_PARAMS`. -/
def plain_bls12_gmimc_opt : Bench :=
  { statics := [.gmimc ⟨6, by decide⟩, .gmimc ⟨7, by decide⟩, .gmimc ⟨8, by decide⟩, .gmimc ⟨10, by decide⟩]
    op := .permutation }

/-- `fn neptune`, `benches/plain_bls12.rs` lines 108-124: `NEPTUNE_BLS_4_PARAMS`, `NEPTUNE_BLS_8_PARAMS`. -/
def plain_bls12_neptune : Bench :=
  { statics := [.neptune ⟨1, by decide⟩, .neptune ⟨2, by decide⟩]
    op := .permutation }

/-- The program `benches/plain_bls12.rs`: `fn criterion_benchmark_plain`, lines 126-132. -/
def plain_bls12 : List Bench :=
  [plain_bls12_poseidon,
   plain_bls12_poseidon2,
   plain_bls12_gmimc,
   plain_bls12_gmimc_opt,
   plain_bls12_neptune]

/-- `fn poseidon_bn256`, `benches/plain_bn256.rs` lines 10-21: `POSEIDON_BN_PARAMS`. -/
def plain_bn256_poseidon_bn256 : Bench :=
  { statics := [.poseidon ⟨10, by decide⟩]
    op := .permutation }

/-- `fn poseidon2_bn256`, `benches/plain_bn256.rs` lines 23-34: `POSEIDON2_BN256_PARAMS`. -/
def plain_bn256_poseidon2_bn256 : Bench :=
  { statics := [.poseidon2 ⟨10, by decide⟩]
    op := .permutation }

/-- `fn gmimc_bn256`, `benches/plain_bn256.rs` lines 36-47: `GMIMC_BN_3_PARAMS`. -/
def plain_bn256_gmimc_bn256 : Bench :=
  { statics := [.gmimc ⟨16, by decide⟩]
    op := .permutationNotOpt }

/-- `fn gmimc_opt_bn256`, `benches/plain_bn256.rs` lines 49-60: `GMIMC_BN_3_PARAMS`. -/
def plain_bn256_gmimc_opt_bn256 : Bench :=
  { statics := [.gmimc ⟨16, by decide⟩]
    op := .permutation }

/-- The program `benches/plain_bn256.rs`: `fn criterion_benchmark_plain_bn256`, lines 62-67. -/
def plain_bn256 : List Bench :=
  [plain_bn256_poseidon_bn256,
   plain_bn256_poseidon2_bn256,
   plain_bn256_gmimc_bn256,
   plain_bn256_gmimc_opt_bn256]

/-- `fn poseidon`, `benches/plain_goldilocks.rs` lines 31-48: `POSEIDON_GOLDILOCKS_8_PARAMS`, `POSEIDON_GOLDILOCKS_12_PARAMS`, `POSEIDON_GOLDILOCKS_16_PARAMS`, `POSEIDON_GOLDILOCKS_20_PARAMS`. -/
def plain_goldilocks_poseidon : Bench :=
  { statics := [.poseidon ⟨0, by decide⟩, .poseidon ⟨1, by decide⟩, .poseidon ⟨2, by decide⟩, .poseidon ⟨3, by decide⟩]
    op := .permutation }

/-- `fn poseidon2`, `benches/plain_goldilocks.rs` lines 50-67: `POSEIDON2_GOLDILOCKS_8_PARAMS`, `POSEIDON2_GOLDILOCKS_12_PARAMS`, `POSEIDON2_GOLDILOCKS_16_PARAMS`, `POSEIDON2_GOLDILOCKS_20_PARAMS`. -/
def plain_goldilocks_poseidon2 : Bench :=
  { statics := [.poseidon2 ⟨0, by decide⟩, .poseidon2 ⟨1, by decide⟩, .poseidon2 ⟨2, by decide⟩, .poseidon2 ⟨3, by decide⟩]
    op := .permutation }

/-- `fn neptune`, `benches/plain_goldilocks.rs` lines 69-86: `NEPTUNE_GOLDILOCKS_8_PARAMS`, `NEPTUNE_GOLDILOCKS_12_PARAMS`, `NEPTUNE_GOLDILOCKS_16_PARAMS`, `NEPTUNE_GOLDILOCKS_20_PARAMS`. -/
def plain_goldilocks_neptune : Bench :=
  { statics := [.neptune ⟨3, by decide⟩, .neptune ⟨4, by decide⟩, .neptune ⟨5, by decide⟩, .neptune ⟨6, by decide⟩]
    op := .permutation }

/-- `fn gmimc`, `benches/plain_goldilocks.rs` lines 88-105: `GMIMC_GOLDILOCKS_8_PARAMS`, `GMIMC_GOLDILOCKS_12_PARAMS`, `GMIMC_GOLDILOCKS_16_PARAMS`, `GMIMC_GOLDILOCKS_20_PARAMS`. -/
def plain_goldilocks_gmimc : Bench :=
  { statics := [.gmimc ⟨0, by decide⟩, .gmimc ⟨1, by decide⟩, .gmimc ⟨2, by decide⟩, .gmimc ⟨3, by decide⟩]
    op := .permutationNotOpt }

/-- `fn gmimc_opt`, `benches/plain_goldilocks.rs` lines 107-124: `GMIMC_GOLDILOCKS_8_PARAMS`, `GMIMC_GOLDILOCKS_12_PARAMS`, `GMIMC_GOLDILOCKS_16_PARAMS`, `GMIMC_GOLDILOCKS_20_PARAMS`. -/
def plain_goldilocks_gmimc_opt : Bench :=
  { statics := [.gmimc ⟨0, by decide⟩, .gmimc ⟨1, by decide⟩, .gmimc ⟨2, by decide⟩, .gmimc ⟨3, by decide⟩]
    op := .permutation }

/-- The program `benches/plain_goldilocks.rs`: `fn criterion_benchmark_plain`, lines 126-132. -/
def plain_goldilocks : List Bench :=
  [plain_goldilocks_poseidon,
   plain_goldilocks_poseidon2,
   plain_goldilocks_neptune,
   plain_goldilocks_gmimc,
   plain_goldilocks_gmimc_opt]

/-- `fn poseidon`, `benches/plain_pallas.rs` lines 27-43: `POSEIDON_PALLAS_3_PARAMS`, `POSEIDON_PALLAS_4_PARAMS`, `POSEIDON_PALLAS_8_PARAMS`. -/
def plain_pallas_poseidon : Bench :=
  { statics := [.poseidon ⟨11, by decide⟩, .poseidon ⟨12, by decide⟩, .poseidon ⟨13, by decide⟩]
    op := .permutation }

/-- `fn poseidon2`, `benches/plain_pallas.rs` lines 45-62: `POSEIDON2_PALLAS_3_PARAMS`, `POSEIDON2_PALLAS_4_PARAMS`, `POSEIDON2_PALLAS_8_PARAMS`. -/
def plain_pallas_poseidon2 : Bench :=
  { statics := [.poseidon2 ⟨11, by decide⟩, .poseidon2 ⟨12, by decide⟩, .poseidon2 ⟨13, by decide⟩]
    op := .permutation }

/-- `fn gmimc`, `benches/plain_pallas.rs` lines 64-81: `GMIMC_PALLAS_3_PARAMS`, `GMIMC_PALLAS_4_PARAMS`, `GMIMC_PALLAS_8_PARAMS`. -/
def plain_pallas_gmimc : Bench :=
  { statics := [.gmimc ⟨25, by decide⟩, .gmimc ⟨26, by decide⟩, .gmimc ⟨28, by decide⟩]
    op := .permutationNotOpt }

/-- `fn gmimc_opt`, `benches/plain_pallas.rs` lines 83-100: `GMIMC_PALLAS_3_PARAMS`, `GMIMC_PALLAS_4_PARAMS`, `GMIMC_PALLAS_8_PARAMS`. -/
def plain_pallas_gmimc_opt : Bench :=
  { statics := [.gmimc ⟨25, by decide⟩, .gmimc ⟨26, by decide⟩, .gmimc ⟨28, by decide⟩]
    op := .permutation }

/-- `fn neptune`, `benches/plain_pallas.rs` lines 102-118: `NEPTUNE_PALLAS_4_PARAMS`, `NEPTUNE_PALLAS_8_PARAMS`. -/
def plain_pallas_neptune : Bench :=
  { statics := [.neptune ⟨9, by decide⟩, .neptune ⟨10, by decide⟩]
    op := .permutation }

/-- The program `benches/plain_pallas.rs`: `fn criterion_benchmark_plain`, lines 120-126. -/
def plain_pallas : List Bench :=
  [plain_pallas_poseidon,
   plain_pallas_poseidon2,
   plain_pallas_gmimc,
   plain_pallas_gmimc_opt,
   plain_pallas_neptune]

/-- `fn poseidon_vesta`, `benches/plain_vesta.rs` lines 10-21: `POSEIDON_VESTA_PARAMS`. -/
def plain_vesta_poseidon_vesta : Bench :=
  { statics := [.poseidon ⟨14, by decide⟩]
    op := .permutation }

/-- `fn poseidon2_vesta`, `benches/plain_vesta.rs` lines 23-34: `POSEIDON2_VESTA_PARAMS`. -/
def plain_vesta_poseidon2_vesta : Bench :=
  { statics := [.poseidon2 ⟨14, by decide⟩]
    op := .permutation }

/-- `fn gmimc_vesta`, `benches/plain_vesta.rs` lines 36-47: `GMIMC_VESTA_3_PARAMS`. -/
def plain_vesta_gmimc_vesta : Bench :=
  { statics := [.gmimc ⟨34, by decide⟩]
    op := .permutationNotOpt }

/-- `fn gmimc_opt_vesta`, `benches/plain_vesta.rs` lines 49-60: `GMIMC_VESTA_3_PARAMS`. -/
def plain_vesta_gmimc_opt_vesta : Bench :=
  { statics := [.gmimc ⟨34, by decide⟩]
    op := .permutation }

/-- The program `benches/plain_vesta.rs`: `fn criterion_benchmark_plain_vesta`, lines 62-67. -/
def plain_vesta : List Bench :=
  [plain_vesta_poseidon_vesta,
   plain_vesta_poseidon2_vesta,
   plain_vesta_gmimc_vesta,
   plain_vesta_gmimc_opt_vesta]

/-- `fn poseidon2_goldilocks_8`, `benches/poseidon2_different_input_size.rs` lines 10-21: `POSEIDON2_GOLDILOCKS_8_PARAMS`. -/
def poseidon2_different_input_size_poseidon2_goldilocks_8 : Bench :=
  { statics := [.poseidon2 ⟨0, by decide⟩]
    op := .permutation }

/-- `fn poseidon2_goldilocks_12`, `benches/poseidon2_different_input_size.rs` lines 23-34: `POSEIDON2_GOLDILOCKS_12_PARAMS`. -/
def poseidon2_different_input_size_poseidon2_goldilocks_12 : Bench :=
  { statics := [.poseidon2 ⟨1, by decide⟩]
    op := .permutation }

/-- `fn poseidon2_goldilocks_16`, `benches/poseidon2_different_input_size.rs` lines 36-47: `POSEIDON2_GOLDILOCKS_16_PARAMS`. -/
def poseidon2_different_input_size_poseidon2_goldilocks_16 : Bench :=
  { statics := [.poseidon2 ⟨2, by decide⟩]
    op := .permutation }

/-- `fn poseidon2_goldilocks_20`, `benches/poseidon2_different_input_size.rs` lines 49-60: `POSEIDON2_GOLDILOCKS_20_PARAMS`. -/
def poseidon2_different_input_size_poseidon2_goldilocks_20 : Bench :=
  { statics := [.poseidon2 ⟨3, by decide⟩]
    op := .permutation }

/-- The program `benches/poseidon2_different_input_size.rs`: `fn criterion_benchmark_poseidon2`, lines 62-67. -/
def poseidon2_different_input_size : List Bench :=
  [poseidon2_different_input_size_poseidon2_goldilocks_8,
   poseidon2_different_input_size_poseidon2_goldilocks_12,
   poseidon2_different_input_size_poseidon2_goldilocks_16,
   poseidon2_different_input_size_poseidon2_goldilocks_20]

/-- The benchmark programs of `Cargo.toml` lines 39-73. -/
def all : List (List Bench) :=
  [mt_bls12, mt_bn256, plain_babybear, plain_bls12, plain_bn256, plain_goldilocks, plain_pallas, plain_vesta, poseidon2_different_input_size]

end ZkHash.Benches
