import Verif.Instances.All
import Verif.Proofs.PoseidonCheck

set_option autoImplicit false

/-!
# The kernel evaluates the check on every shipped Poseidon table

Generated by `tools/gen_instances.py`.
-/

namespace ZkHash.Instances

theorem POSEIDON_GOLDILOCKS_8_PARAMS_checked : PoseidonGoldilocks.POSEIDON_GOLDILOCKS_8_PARAMS.check = true := by decide +kernel
theorem POSEIDON_GOLDILOCKS_12_PARAMS_checked : PoseidonGoldilocks.POSEIDON_GOLDILOCKS_12_PARAMS.check = true := by decide +kernel
theorem POSEIDON_GOLDILOCKS_16_PARAMS_checked : PoseidonGoldilocks.POSEIDON_GOLDILOCKS_16_PARAMS.check = true := by decide +kernel
theorem POSEIDON_GOLDILOCKS_20_PARAMS_checked : PoseidonGoldilocks.POSEIDON_GOLDILOCKS_20_PARAMS.check = true := by decide +kernel
theorem POSEIDON_BABYBEAR_16_PARAMS_checked : PoseidonBabybear.POSEIDON_BABYBEAR_16_PARAMS.check = true := by decide +kernel
theorem POSEIDON_BABYBEAR_24_PARAMS_checked : PoseidonBabybear.POSEIDON_BABYBEAR_24_PARAMS.check = true := by decide +kernel
theorem POSEIDON_BLS_2_PARAMS_checked : PoseidonBls12.POSEIDON_BLS_2_PARAMS.check = true := by decide +kernel
theorem POSEIDON_BLS_3_PARAMS_checked : PoseidonBls12.POSEIDON_BLS_3_PARAMS.check = true := by decide +kernel
theorem POSEIDON_BLS_4_PARAMS_checked : PoseidonBls12.POSEIDON_BLS_4_PARAMS.check = true := by decide +kernel
theorem POSEIDON_BLS_8_PARAMS_checked : PoseidonBls12.POSEIDON_BLS_8_PARAMS.check = true := by decide +kernel
theorem POSEIDON_BN_PARAMS_checked : PoseidonBn256.POSEIDON_BN_PARAMS.check = true := by decide +kernel
theorem POSEIDON_PALLAS_3_PARAMS_checked : PoseidonPallas.POSEIDON_PALLAS_3_PARAMS.check = true := by decide +kernel
theorem POSEIDON_PALLAS_4_PARAMS_checked : PoseidonPallas.POSEIDON_PALLAS_4_PARAMS.check = true := by decide +kernel
theorem POSEIDON_PALLAS_8_PARAMS_checked : PoseidonPallas.POSEIDON_PALLAS_8_PARAMS.check = true := by decide +kernel
theorem POSEIDON_VESTA_PARAMS_checked : PoseidonVesta.POSEIDON_VESTA_PARAMS.check = true := by decide +kernel

theorem poseidon_checked (S : PoseidonSource) (hS : S ∈ poseidon) : S.check = true := by
  simp only [poseidon, List.mem_cons, List.not_mem_nil, or_false] at hS
  rcases hS with rfl | rfl | rfl | rfl | rfl | rfl | rfl | rfl | rfl | rfl | rfl | rfl | rfl | rfl | rfl
  · exact POSEIDON_GOLDILOCKS_8_PARAMS_checked
  · exact POSEIDON_GOLDILOCKS_12_PARAMS_checked
  · exact POSEIDON_GOLDILOCKS_16_PARAMS_checked
  · exact POSEIDON_GOLDILOCKS_20_PARAMS_checked
  · exact POSEIDON_BABYBEAR_16_PARAMS_checked
  · exact POSEIDON_BABYBEAR_24_PARAMS_checked
  · exact POSEIDON_BLS_2_PARAMS_checked
  · exact POSEIDON_BLS_3_PARAMS_checked
  · exact POSEIDON_BLS_4_PARAMS_checked
  · exact POSEIDON_BLS_8_PARAMS_checked
  · exact POSEIDON_BN_PARAMS_checked
  · exact POSEIDON_PALLAS_3_PARAMS_checked
  · exact POSEIDON_PALLAS_4_PARAMS_checked
  · exact POSEIDON_PALLAS_8_PARAMS_checked
  · exact POSEIDON_VESTA_PARAMS_checked

end ZkHash.Instances
