import Verif.Instances.All
import Verif.Proofs.SearchCheck

set_option autoImplicit false

/-!
# The round numbers of the shipped Poseidon2 instances pass the check of `SearchCheck.lean`

Generated by `tools/gen_rounds.py`.
-/

namespace ZkHash.Instances

set_option maxRecDepth 100000

theorem POSEIDON2_GOLDILOCKS_8_PARAMS_rounds : ∃ a c1 k2 kt k3 k4 k5,
    Sage.searchOk (Poseidon2Goldilocks.POSEIDON2_GOLDILOCKS_8_PARAMS.modulus.log2 + 1) Poseidon2Goldilocks.POSEIDON2_GOLDILOCKS_8_PARAMS.modulus 8 7 a c1 k2 kt k3 k4 k5 8 22 = true :=
  ⟨3, 6, 23, 2, 23, 6, 23, by decide +kernel⟩

theorem POSEIDON2_GOLDILOCKS_12_PARAMS_rounds : ∃ a c1 k2 kt k3 k4 k5,
    Sage.searchOk (Poseidon2Goldilocks.POSEIDON2_GOLDILOCKS_12_PARAMS.modulus.log2 + 1) Poseidon2Goldilocks.POSEIDON2_GOLDILOCKS_12_PARAMS.modulus 12 7 a c1 k2 kt k3 k4 k5 8 22 = true :=
  ⟨3, 6, 23, 2, 23, 4, 23, by decide +kernel⟩

theorem POSEIDON2_GOLDILOCKS_16_PARAMS_rounds : ∃ a c1 k2 kt k3 k4 k5,
    Sage.searchOk (Poseidon2Goldilocks.POSEIDON2_GOLDILOCKS_16_PARAMS.modulus.log2 + 1) Poseidon2Goldilocks.POSEIDON2_GOLDILOCKS_16_PARAMS.modulus 16 7 a c1 k2 kt k3 k4 k5 8 22 = true :=
  ⟨3, 6, 23, 2, 23, 3, 23, by decide +kernel⟩

theorem POSEIDON2_GOLDILOCKS_20_PARAMS_rounds : ∃ a c1 k2 kt k3 k4 k5,
    Sage.searchOk (Poseidon2Goldilocks.POSEIDON2_GOLDILOCKS_20_PARAMS.modulus.log2 + 1) Poseidon2Goldilocks.POSEIDON2_GOLDILOCKS_20_PARAMS.modulus 20 7 a c1 k2 kt k3 k4 k5 8 22 = true :=
  ⟨3, 6, 23, 2, 23, 3, 23, by decide +kernel⟩

theorem POSEIDON2_BABYBEAR_16_PARAMS_rounds : ∃ a c1 k2 kt k3 k4 k5,
    Sage.searchOk (Poseidon2Babybear.POSEIDON2_BABYBEAR_16_PARAMS.modulus.log2 + 1) Poseidon2Babybear.POSEIDON2_BABYBEAR_16_PARAMS.modulus 16 7 a c1 k2 kt k3 k4 k5 8 13 = true :=
  ⟨3, 6, 12, 2, 12, 3, 23, by decide +kernel⟩

theorem POSEIDON2_BABYBEAR_24_PARAMS_rounds : ∃ a c1 k2 kt k3 k4 k5,
    Sage.searchOk (Poseidon2Babybear.POSEIDON2_BABYBEAR_24_PARAMS.modulus.log2 + 1) Poseidon2Babybear.POSEIDON2_BABYBEAR_24_PARAMS.modulus 24 7 a c1 k2 kt k3 k4 k5 8 21 = true :=
  ⟨3, 6, 12, 2, 12, 2, 23, by decide +kernel⟩

theorem POSEIDON2_BLS_2_PARAMS_rounds : ∃ a c1 k2 kt k3 k4 k5,
    Sage.searchOk (Poseidon2Bls12.POSEIDON2_BLS_2_PARAMS.modulus.log2 + 1) Poseidon2Bls12.POSEIDON2_BLS_2_PARAMS.modulus 2 5 a c1 k2 kt k3 k4 k5 8 56 = true :=
  ⟨2, 6, 56, 1, 56, 19, 28, by decide +kernel⟩

theorem POSEIDON2_BLS_3_PARAMS_rounds : ∃ a c1 k2 kt k3 k4 k5,
    Sage.searchOk (Poseidon2Bls12.POSEIDON2_BLS_3_PARAMS.modulus.log2 + 1) Poseidon2Bls12.POSEIDON2_BLS_3_PARAMS.modulus 3 5 a c1 k2 kt k3 k4 k5 8 56 = true :=
  ⟨2, 6, 56, 1, 56, 14, 28, by decide +kernel⟩

theorem POSEIDON2_BLS_4_PARAMS_rounds : ∃ a c1 k2 kt k3 k4 k5,
    Sage.searchOk (Poseidon2Bls12.POSEIDON2_BLS_4_PARAMS.modulus.log2 + 1) Poseidon2Bls12.POSEIDON2_BLS_4_PARAMS.modulus 4 5 a c1 k2 kt k3 k4 k5 8 56 = true :=
  ⟨2, 6, 56, 1, 56, 12, 28, by decide +kernel⟩

theorem POSEIDON2_BLS_8_PARAMS_rounds : ∃ a c1 k2 kt k3 k4 k5,
    Sage.searchOk (Poseidon2Bls12.POSEIDON2_BLS_8_PARAMS.modulus.log2 + 1) Poseidon2Bls12.POSEIDON2_BLS_8_PARAMS.modulus 8 5 a c1 k2 kt k3 k4 k5 8 57 = true :=
  ⟨2, 6, 56, 2, 56, 7, 28, by decide +kernel⟩

theorem POSEIDON2_BN256_PARAMS_rounds : ∃ a c1 k2 kt k3 k4 k5,
    Sage.searchOk (Poseidon2Bn256.POSEIDON2_BN256_PARAMS.modulus.log2 + 1) Poseidon2Bn256.POSEIDON2_BN256_PARAMS.modulus 3 5 a c1 k2 kt k3 k4 k5 8 56 = true :=
  ⟨2, 6, 56, 1, 56, 14, 28, by decide +kernel⟩

theorem POSEIDON2_PALLAS_3_PARAMS_rounds : ∃ a c1 k2 kt k3 k4 k5,
    Sage.searchOk (Poseidon2Pallas.POSEIDON2_PALLAS_3_PARAMS.modulus.log2 + 1) Poseidon2Pallas.POSEIDON2_PALLAS_3_PARAMS.modulus 3 5 a c1 k2 kt k3 k4 k5 8 56 = true :=
  ⟨2, 6, 56, 1, 56, 14, 28, by decide +kernel⟩

theorem POSEIDON2_PALLAS_4_PARAMS_rounds : ∃ a c1 k2 kt k3 k4 k5,
    Sage.searchOk (Poseidon2Pallas.POSEIDON2_PALLAS_4_PARAMS.modulus.log2 + 1) Poseidon2Pallas.POSEIDON2_PALLAS_4_PARAMS.modulus 4 5 a c1 k2 kt k3 k4 k5 8 56 = true :=
  ⟨2, 6, 56, 1, 56, 12, 28, by decide +kernel⟩

theorem POSEIDON2_PALLAS_8_PARAMS_rounds : ∃ a c1 k2 kt k3 k4 k5,
    Sage.searchOk (Poseidon2Pallas.POSEIDON2_PALLAS_8_PARAMS.modulus.log2 + 1) Poseidon2Pallas.POSEIDON2_PALLAS_8_PARAMS.modulus 8 5 a c1 k2 kt k3 k4 k5 8 57 = true :=
  ⟨2, 6, 56, 2, 56, 7, 28, by decide +kernel⟩

theorem POSEIDON2_VESTA_PARAMS_rounds : ∃ a c1 k2 kt k3 k4 k5,
    Sage.searchOk (Poseidon2Vesta.POSEIDON2_VESTA_PARAMS.modulus.log2 + 1) Poseidon2Vesta.POSEIDON2_VESTA_PARAMS.modulus 3 5 a c1 k2 kt k3 k4 k5 8 56 = true :=
  ⟨2, 6, 56, 1, 56, 14, 28, by decide +kernel⟩

theorem poseidon2_rounds (S : Poseidon2Source) (hS : S ∈ poseidon2) : ∃ a c1 k2 kt k3 k4 k5,
    Sage.searchOk (S.modulus.log2 + 1) S.modulus S.t S.d a c1 k2 kt k3 k4 k5 S.rounds_f S.rounds_p = true := by
  simp only [poseidon2, List.mem_cons, List.not_mem_nil, or_false] at hS
  rcases hS with rfl | rfl | rfl | rfl | rfl | rfl | rfl | rfl | rfl | rfl | rfl | rfl | rfl | rfl | rfl
  · exact POSEIDON2_GOLDILOCKS_8_PARAMS_rounds
  · exact POSEIDON2_GOLDILOCKS_12_PARAMS_rounds
  · exact POSEIDON2_GOLDILOCKS_16_PARAMS_rounds
  · exact POSEIDON2_GOLDILOCKS_20_PARAMS_rounds
  · exact POSEIDON2_BABYBEAR_16_PARAMS_rounds
  · exact POSEIDON2_BABYBEAR_24_PARAMS_rounds
  · exact POSEIDON2_BLS_2_PARAMS_rounds
  · exact POSEIDON2_BLS_3_PARAMS_rounds
  · exact POSEIDON2_BLS_4_PARAMS_rounds
  · exact POSEIDON2_BLS_8_PARAMS_rounds
  · exact POSEIDON2_BN256_PARAMS_rounds
  · exact POSEIDON2_PALLAS_3_PARAMS_rounds
  · exact POSEIDON2_PALLAS_4_PARAMS_rounds
  · exact POSEIDON2_PALLAS_8_PARAMS_rounds
  · exact POSEIDON2_VESTA_PARAMS_rounds

end ZkHash.Instances
