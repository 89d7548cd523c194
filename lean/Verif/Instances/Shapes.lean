import Verif.Model.Instances

set_option autoImplicit false

/-!
# Shape arguments of the Neptune and GMiMC parameter sets

Generated by `tools/gen_instances.py`.
-/

namespace ZkHash.Instances

/-- Arguments `(t, d, rounds_f, rounds_p)` of the `NeptuneParams::new` calls in `src/neptune/neptune_instances.rs`. -/
def neptune : List Shape := [
  -- `NEPTUNE_BN_PARAMS`, line 13
  ⟨Fields.bn256Modulus, 4, 5, 6, 68⟩,
  -- `NEPTUNE_BLS_4_PARAMS`, line 15
  ⟨Fields.bls12Modulus, 4, 5, 6, 69⟩,
  -- `NEPTUNE_BLS_8_PARAMS`, line 16
  ⟨Fields.bls12Modulus, 8, 5, 6, 74⟩,
  -- `NEPTUNE_GOLDILOCKS_8_PARAMS`, line 18
  ⟨Fields.goldilocksModulus, 8, 7, 6, 38⟩,
  -- `NEPTUNE_GOLDILOCKS_12_PARAMS`, line 19
  ⟨Fields.goldilocksModulus, 12, 7, 6, 42⟩,
  -- `NEPTUNE_GOLDILOCKS_16_PARAMS`, line 20
  ⟨Fields.goldilocksModulus, 16, 7, 6, 48⟩,
  -- `NEPTUNE_GOLDILOCKS_20_PARAMS`, line 21
  ⟨Fields.goldilocksModulus, 20, 7, 6, 52⟩,
  -- `NEPTUNE_BABYBEAR_16_PARAMS`, line 23
  ⟨Fields.babybearModulus, 16, 7, 6, 34⟩,
  -- `NEPTUNE_BABYBEAR_24_PARAMS`, line 24
  ⟨Fields.babybearModulus, 24, 7, 6, 43⟩,
  -- `NEPTUNE_PALLAS_4_PARAMS`, line 26
  ⟨Fields.pallasModulus, 4, 5, 6, 69⟩,
  -- `NEPTUNE_PALLAS_8_PARAMS`, line 27
  ⟨Fields.pallasModulus, 8, 5, 6, 74⟩,
  -- `NEPTUNE_VESTA_PARAMS`, line 29
  ⟨Fields.vestaModulus, 4, 5, 6, 68⟩]

/-- Arguments `(t, d, rounds)` of the `GmimcParams::new` calls in `src/gmimc/gmimc_instance_*.rs` (`rounds` in the field `rounds_f`; `rounds_p` is unused and 0). -/
def gmimc : List Shape := [
  -- `GMIMC_GOLDILOCKS_8_PARAMS`, `src/gmimc/gmimc_instance_goldilocks.rs` line 12
  ⟨Fields.goldilocksModulus, 8, 7, 146, 0⟩,
  -- `GMIMC_GOLDILOCKS_12_PARAMS`, `src/gmimc/gmimc_instance_goldilocks.rs` line 14
  ⟨Fields.goldilocksModulus, 12, 7, 314, 0⟩,
  -- `GMIMC_GOLDILOCKS_16_PARAMS`, `src/gmimc/gmimc_instance_goldilocks.rs` line 16
  ⟨Fields.goldilocksModulus, 16, 7, 546, 0⟩,
  -- `GMIMC_GOLDILOCKS_20_PARAMS`, `src/gmimc/gmimc_instance_goldilocks.rs` line 18
  ⟨Fields.goldilocksModulus, 20, 7, 842, 0⟩,
  -- `GMIMC_BABYBEAR_16_PARAMS`, `src/gmimc/gmimc_instance_babybear.rs` line 12
  ⟨Fields.babybearModulus, 16, 7, 546, 0⟩,
  -- `GMIMC_BABYBEAR_24_PARAMS`, `src/gmimc/gmimc_instance_babybear.rs` line 14
  ⟨Fields.babybearModulus, 24, 7, 1202, 0⟩,
  -- `GMIMC_BLS_2_PARAMS`, `src/gmimc/gmimc_instance_bls12.rs` line 12
  ⟨Fields.bls12Modulus, 2, 5, 224, 0⟩,
  -- `GMIMC_BLS_3_PARAMS`, `src/gmimc/gmimc_instance_bls12.rs` line 14
  ⟨Fields.bls12Modulus, 3, 5, 226, 0⟩,
  -- `GMIMC_BLS_4_PARAMS`, `src/gmimc/gmimc_instance_bls12.rs` line 16
  ⟨Fields.bls12Modulus, 4, 5, 228, 0⟩,
  -- `GMIMC_BLS_5_PARAMS`, `src/gmimc/gmimc_instance_bls12.rs` line 18
  ⟨Fields.bls12Modulus, 5, 5, 230, 0⟩,
  -- `GMIMC_BLS_8_PARAMS`, `src/gmimc/gmimc_instance_bls12.rs` line 20
  ⟨Fields.bls12Modulus, 8, 5, 236, 0⟩,
  -- `GMIMC_BLS_9_PARAMS`, `src/gmimc/gmimc_instance_bls12.rs` line 22
  ⟨Fields.bls12Modulus, 9, 5, 238, 0⟩,
  -- `GMIMC_BLS_12_PARAMS`, `src/gmimc/gmimc_instance_bls12.rs` line 24
  ⟨Fields.bls12Modulus, 12, 5, 314, 0⟩,
  -- `GMIMC_BLS_16_PARAMS`, `src/gmimc/gmimc_instance_bls12.rs` line 26
  ⟨Fields.bls12Modulus, 16, 5, 546, 0⟩,
  -- `GMIMC_BLS_20_PARAMS`, `src/gmimc/gmimc_instance_bls12.rs` line 28
  ⟨Fields.bls12Modulus, 20, 5, 842, 0⟩,
  -- `GMIMC_BLS_24_PARAMS`, `src/gmimc/gmimc_instance_bls12.rs` line 30
  ⟨Fields.bls12Modulus, 24, 5, 1202, 0⟩,
  -- `GMIMC_BN_3_PARAMS`, `src/gmimc/gmimc_instance_bn256.rs` line 12
  ⟨Fields.bn256Modulus, 3, 5, 226, 0⟩,
  -- `GMIMC_BN_4_PARAMS`, `src/gmimc/gmimc_instance_bn256.rs` line 14
  ⟨Fields.bn256Modulus, 4, 5, 228, 0⟩,
  -- `GMIMC_BN_5_PARAMS`, `src/gmimc/gmimc_instance_bn256.rs` line 16
  ⟨Fields.bn256Modulus, 5, 5, 230, 0⟩,
  -- `GMIMC_BN_8_PARAMS`, `src/gmimc/gmimc_instance_bn256.rs` line 18
  ⟨Fields.bn256Modulus, 8, 5, 236, 0⟩,
  -- `GMIMC_BN_9_PARAMS`, `src/gmimc/gmimc_instance_bn256.rs` line 20
  ⟨Fields.bn256Modulus, 9, 5, 238, 0⟩,
  -- `GMIMC_BN_12_PARAMS`, `src/gmimc/gmimc_instance_bn256.rs` line 22
  ⟨Fields.bn256Modulus, 12, 5, 314, 0⟩,
  -- `GMIMC_BN_16_PARAMS`, `src/gmimc/gmimc_instance_bn256.rs` line 24
  ⟨Fields.bn256Modulus, 16, 5, 546, 0⟩,
  -- `GMIMC_BN_20_PARAMS`, `src/gmimc/gmimc_instance_bn256.rs` line 26
  ⟨Fields.bn256Modulus, 20, 5, 842, 0⟩,
  -- `GMIMC_BN_24_PARAMS`, `src/gmimc/gmimc_instance_bn256.rs` line 28
  ⟨Fields.bn256Modulus, 24, 5, 1202, 0⟩,
  -- `GMIMC_PALLAS_3_PARAMS`, `src/gmimc/gmimc_instance_pallas.rs` line 12
  ⟨Fields.pallasModulus, 3, 5, 226, 0⟩,
  -- `GMIMC_PALLAS_4_PARAMS`, `src/gmimc/gmimc_instance_pallas.rs` line 14
  ⟨Fields.pallasModulus, 4, 5, 228, 0⟩,
  -- `GMIMC_PALLAS_5_PARAMS`, `src/gmimc/gmimc_instance_pallas.rs` line 16
  ⟨Fields.pallasModulus, 5, 5, 230, 0⟩,
  -- `GMIMC_PALLAS_8_PARAMS`, `src/gmimc/gmimc_instance_pallas.rs` line 18
  ⟨Fields.pallasModulus, 8, 5, 236, 0⟩,
  -- `GMIMC_PALLAS_9_PARAMS`, `src/gmimc/gmimc_instance_pallas.rs` line 20
  ⟨Fields.pallasModulus, 9, 5, 238, 0⟩,
  -- `GMIMC_PALLAS_12_PARAMS`, `src/gmimc/gmimc_instance_pallas.rs` line 22
  ⟨Fields.pallasModulus, 12, 5, 314, 0⟩,
  -- `GMIMC_PALLAS_16_PARAMS`, `src/gmimc/gmimc_instance_pallas.rs` line 24
  ⟨Fields.pallasModulus, 16, 5, 546, 0⟩,
  -- `GMIMC_PALLAS_20_PARAMS`, `src/gmimc/gmimc_instance_pallas.rs` line 26
  ⟨Fields.pallasModulus, 20, 5, 842, 0⟩,
  -- `GMIMC_PALLAS_24_PARAMS`, `src/gmimc/gmimc_instance_pallas.rs` line 28
  ⟨Fields.pallasModulus, 24, 5, 1202, 0⟩,
  -- `GMIMC_VESTA_3_PARAMS`, `src/gmimc/gmimc_instance_vesta.rs` line 12
  ⟨Fields.vestaModulus, 3, 5, 226, 0⟩,
  -- `GMIMC_VESTA_4_PARAMS`, `src/gmimc/gmimc_instance_vesta.rs` line 14
  ⟨Fields.vestaModulus, 4, 5, 228, 0⟩,
  -- `GMIMC_VESTA_5_PARAMS`, `src/gmimc/gmimc_instance_vesta.rs` line 16
  ⟨Fields.vestaModulus, 5, 5, 230, 0⟩,
  -- `GMIMC_VESTA_8_PARAMS`, `src/gmimc/gmimc_instance_vesta.rs` line 18
  ⟨Fields.vestaModulus, 8, 5, 236, 0⟩,
  -- `GMIMC_VESTA_9_PARAMS`, `src/gmimc/gmimc_instance_vesta.rs` line 20
  ⟨Fields.vestaModulus, 9, 5, 238, 0⟩,
  -- `GMIMC_VESTA_12_PARAMS`, `src/gmimc/gmimc_instance_vesta.rs` line 22
  ⟨Fields.vestaModulus, 12, 5, 314, 0⟩,
  -- `GMIMC_VESTA_16_PARAMS`, `src/gmimc/gmimc_instance_vesta.rs` line 24
  ⟨Fields.vestaModulus, 16, 5, 546, 0⟩,
  -- `GMIMC_VESTA_20_PARAMS`, `src/gmimc/gmimc_instance_vesta.rs` line 26
  ⟨Fields.vestaModulus, 20, 5, 842, 0⟩,
  -- `GMIMC_VESTA_24_PARAMS`, `src/gmimc/gmimc_instance_vesta.rs` line 28
  ⟨Fields.vestaModulus, 24, 5, 1202, 0⟩]

end ZkHash.Instances
