import Verif.Instances.Poseidon2Goldilocks
import Verif.Instances.Poseidon2Babybear
import Verif.Instances.Poseidon2Bls12
import Verif.Instances.Poseidon2Bn256
import Verif.Instances.Poseidon2Pallas
import Verif.Instances.Poseidon2Vesta
import Verif.Instances.PoseidonGoldilocks
import Verif.Instances.PoseidonBabybear
import Verif.Instances.PoseidonBls12
import Verif.Instances.PoseidonBn256
import Verif.Instances.PoseidonPallas
import Verif.Instances.PoseidonVesta

set_option autoImplicit false

/-!
# All shipped parameter sets with tables

Generated by `tools/gen_instances.py`.
-/

namespace ZkHash.Instances

/-- The `lazy_static` parameter sets of `src/poseidon2/poseidon2_instance_*.rs`. -/
def poseidon2 : List Poseidon2Source :=
  [Poseidon2Goldilocks.POSEIDON2_GOLDILOCKS_8_PARAMS,
   Poseidon2Goldilocks.POSEIDON2_GOLDILOCKS_12_PARAMS,
   Poseidon2Goldilocks.POSEIDON2_GOLDILOCKS_16_PARAMS,
   Poseidon2Goldilocks.POSEIDON2_GOLDILOCKS_20_PARAMS,
   Poseidon2Babybear.POSEIDON2_BABYBEAR_16_PARAMS,
   Poseidon2Babybear.POSEIDON2_BABYBEAR_24_PARAMS,
   Poseidon2Bls12.POSEIDON2_BLS_2_PARAMS,
   Poseidon2Bls12.POSEIDON2_BLS_3_PARAMS,
   Poseidon2Bls12.POSEIDON2_BLS_4_PARAMS,
   Poseidon2Bls12.POSEIDON2_BLS_8_PARAMS,
   Poseidon2Bn256.POSEIDON2_BN256_PARAMS,
   Poseidon2Pallas.POSEIDON2_PALLAS_3_PARAMS,
   Poseidon2Pallas.POSEIDON2_PALLAS_4_PARAMS,
   Poseidon2Pallas.POSEIDON2_PALLAS_8_PARAMS,
   Poseidon2Vesta.POSEIDON2_VESTA_PARAMS]

/-- The `lazy_static` parameter sets of `src/poseidon/poseidon_instance_*.rs`. -/
def poseidon : List PoseidonSource :=
  [PoseidonGoldilocks.POSEIDON_GOLDILOCKS_8_PARAMS,
   PoseidonGoldilocks.POSEIDON_GOLDILOCKS_12_PARAMS,
   PoseidonGoldilocks.POSEIDON_GOLDILOCKS_16_PARAMS,
   PoseidonGoldilocks.POSEIDON_GOLDILOCKS_20_PARAMS,
   PoseidonBabybear.POSEIDON_BABYBEAR_16_PARAMS,
   PoseidonBabybear.POSEIDON_BABYBEAR_24_PARAMS,
   PoseidonBls12.POSEIDON_BLS_2_PARAMS,
   PoseidonBls12.POSEIDON_BLS_3_PARAMS,
   PoseidonBls12.POSEIDON_BLS_4_PARAMS,
   PoseidonBls12.POSEIDON_BLS_8_PARAMS,
   PoseidonBn256.POSEIDON_BN_PARAMS,
   PoseidonPallas.POSEIDON_PALLAS_3_PARAMS,
   PoseidonPallas.POSEIDON_PALLAS_4_PARAMS,
   PoseidonPallas.POSEIDON_PALLAS_8_PARAMS,
   PoseidonVesta.POSEIDON_VESTA_PARAMS]

end ZkHash.Instances
