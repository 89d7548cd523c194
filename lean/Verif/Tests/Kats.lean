import Verif.Theorems.PoseidonInstances
import Verif.Theorems.Poseidon2Instances

set_option autoImplicit false

/-!
# The known-answer tests of the repository, run on the model

Generated by `tools/gen_kats.py`. These are tests of the model, not proofs of a property: each one evaluates the
model on the input `[0, 1, .., t-1]` of a `fn kats` of the source and compares the output with the vector written there.
The evaluation is done by the kernel. For Poseidon the plain permutation is evaluated and property C17 carries the
result to the optimized one, which is the function the source calls.
-/

namespace ZkHash.Tests

open Instances

set_option maxRecDepth 1000000

/-- The input of every known-answer test of the source. -/
def katInput (p t : Nat) : List (ZMod p) := (List.range t).map fun n : Nat => (n : ZMod p)

/-- The integers of a vector as field elements. -/
def elems (p : Nat) (v : List Nat) : List (ZMod p) := v.map fun n : Nat => (n : ZMod p)

/-- The permutation of a shipped Poseidon2 table, on the test input. -/
def poseidon2Out (dbg : Bool) (S : Poseidon2Source) : Option (List (ZMod S.modulus)) := do
  let P ← S.params dbg
  Poseidon2.permutation dbg P (katInput S.modulus S.t)

/-- A Poseidon parameter value with the plain tables only. -/
def plainParams (S : PoseidonSource) : PoseidonParams (ZMod S.modulus) where
  t := S.t
  d := S.d
  rounds_f_beginning := S.rounds_f / 2
  rounds_p := S.rounds_p
  rounds_f_end := S.rounds_f / 2
  rounds := S.rounds_f + S.rounds_p
  mds := S.mdsF
  round_constants := S.rcF
  opt_round_constants := []
  w_hat := []
  v := []
  m_i := []

/-- The plain permutation of a shipped Poseidon table, on the test input. -/
def poseidonPlainOut (dbg : Bool) (S : PoseidonSource) : Option (List (ZMod S.modulus)) :=
  Poseidon.permutationNotOpt dbg (plainParams S) (katInput S.modulus S.t)

/-- The plain permutation reads only the plain tables. -/
theorem permutationNotOpt_params {S : PoseidonSource} [ArkInverse (ZMod S.modulus)] {dbg : Bool}
    {P : PoseidonParams (ZMod S.modulus)} (hP : S.params dbg = some P) (hfit : S.rounds_f + S.rounds_p < 2 ^ 64)
    (dbg' : Bool) (x : List (ZMod S.modulus)) :
    Poseidon.permutationNotOpt dbg' P x = Poseidon.permutationNotOpt dbg' (plainParams S) x := by
  unfold PoseidonSource.params PoseidonParams.new at hP
  simp only [uadd_fits dbg hfit, Option.bind_eq_bind, Option.bind_some, Option.bind_eq_some_iff, Option.pure_def,
    Option.some.injEq] at hP
  obtain ⟨_, _, _, _, _, _, ⟨m_i, v, w⟩, _, _, _, rfl⟩ := hP
  rfl

/-- What a known-answer test of Poseidon asserts, from the evaluation of the plain permutation. -/
theorem poseidon_kat {S : PoseidonSource} (hS : S ∈ Instances.poseidon) [Fact S.modulus.Prime] {dbg : Bool}
    {out : List (ZMod S.modulus)} (h : poseidonPlainOut dbg S = some out) :
    ∃ P, S.params dbg = some P ∧ Poseidon.permutation dbg P (katInput S.modulus S.t) = some out := by
  obtain ⟨P, hP, hopt, _⟩ := C17_shipped S hS dbg
  exact ⟨P, hP, by rw [hopt, permutationNotOpt_params hP (poseidon_good S hS).shaped.fits]; exact h⟩

/-- `src/poseidon2/poseidon2.rs` lines 280-299, `POSEIDON2_GOLDILOCKS_12_PARAMS`, in both profiles. -/
example (dbg : Bool) : poseidon2Out dbg Poseidon2Goldilocks.POSEIDON2_GOLDILOCKS_12_PARAMS = some (elems _
    [0x01eaef96bdf1c0c1,
     0x1f0d2cc525b2540c,
     0x6282c1dfe1e0358d,
     0xe780d721f698e1e6,
     0x280c0b6f753d833b,
     0x1b942dd5023156ab,
     0x43f0df3fcccb8398,
     0xe8e8190585489025,
     0x56bdbf72f77ada22,
     0x7911c32bf9dcd705,
     0xec467926508fbe67,
     0x6a50450ddf85a6ed]) := by
  cases dbg <;> decide +kernel

/-- `src/poseidon2/poseidon2.rs` lines 346-377, `POSEIDON2_BABYBEAR_24_PARAMS`, in both profiles. -/
example (dbg : Bool) : poseidon2Out dbg Poseidon2Babybear.POSEIDON2_BABYBEAR_24_PARAMS = some (elems _
    [0x2ed3e23d,
     0x12921fb0,
     0x0e659e79,
     0x61d81dc9,
     0x32bae33b,
     0x62486ae3,
     0x1e681b60,
     0x24b91325,
     0x2a2ef5b9,
     0x50e8593e,
     0x5bc818ec,
     0x10691997,
     0x35a14520,
     0x2ba6a3c5,
     0x279d47ec,
     0x55014e81,
     0x5953a67f,
     0x2f403111,
     0x6b8828ff,
     0x1801301f,
     0x2749207a,
     0x3dc9cf21,
     0x3c985ba2,
     0x57a99864]) := by
  cases dbg <;> decide +kernel

/-- `src/poseidon2/poseidon2.rs` lines 428-458, `POSEIDON2_BLS_2_PARAMS`, in both profiles. -/
example (dbg : Bool) : poseidon2Out dbg Poseidon2Bls12.POSEIDON2_BLS_2_PARAMS = some (elems _
    [0x73c46dd530e248a87b61d19e67fa1b4ed30fc3d09f16531fe189fb945a15ce4e,
     0x1f0e305ee21c9366d5793b80251405032a3fee32b9dd0b5f4578262891b043b4]) := by
  cases dbg <;> decide +kernel

/-- `src/poseidon2/poseidon2.rs` lines 428-458, `POSEIDON2_BLS_3_PARAMS`, in both profiles. -/
example (dbg : Bool) : poseidon2Out dbg Poseidon2Bls12.POSEIDON2_BLS_3_PARAMS = some (elems _
    [0x1b152349b1950b6a8ca75ee4407b6e26ca5cca5650534e56ef3fd45761fbf5f0,
     0x4c5793c87d51bdc2c08a32108437dc0000bd0275868f09ebc5f36919af5b3891,
     0x1fc8ed171e67902ca49863159fe5ba6325318843d13976143b8125f08b50dc6b]) := by
  cases dbg <;> decide +kernel

/-- `src/poseidon2/poseidon2.rs` lines 428-458, `POSEIDON2_BLS_4_PARAMS`, in both profiles. -/
example (dbg : Bool) : poseidon2Out dbg Poseidon2Bls12.POSEIDON2_BLS_4_PARAMS = some (elems _
    [0x28ff6c4edf9768c08ae26290487e93449cc8bc155fc2fad92a344adceb3ada6d,
     0x0e56f2b6fad25075aa93560185b70e2b180ed7e269159c507c288b6747a0db2d,
     0x6d8196f28da6006bb89b3df94600acdc03d0ba7c2b0f3f4409a54c1db6bf30d0,
     0x07cfb49540ee456cce38b8a7d1a930a57ffc6660737f6589ef184c5e15334e36]) := by
  cases dbg <;> decide +kernel

/-- `src/poseidon2/poseidon2.rs` lines 498-508, `POSEIDON2_BN256_PARAMS`, in both profiles. -/
example (dbg : Bool) : poseidon2Out dbg Poseidon2Bn256.POSEIDON2_BN256_PARAMS = some (elems _
    [0x0bb61d24daca55eebcb1929a82650f328134334da98ea4f847f760054f4a3033,
     0x303b6f7c86d043bfcbcc80214f26a30277a15d3f74ca654992defe7ff8d03570,
     0x1ed25194542b12eef8617361c3ba7c52e660b145994427cc86296242cf766ec8]) := by
  cases dbg <;> decide +kernel

/-- `src/poseidon2/poseidon2.rs` lines 567-577, `POSEIDON2_PALLAS_3_PARAMS`, in both profiles. -/
example (dbg : Bool) : poseidon2Out dbg Poseidon2Pallas.POSEIDON2_PALLAS_3_PARAMS = some (elems _
    [0x1a9b54c7512a914dd778282c44b3513fea7251420b9d95750baae059b2268d7a,
     0x1c48ea0994a7d7984ea338a54dbf0c8681f5af883fe988d59ba3380c9f7901fc,
     0x079ddd0a80a3e9414489b526a2770448964766685f4c4842c838f8a23120b401]) := by
  cases dbg <;> decide +kernel

/-- `src/poseidon2/poseidon2.rs` lines 615-625, `POSEIDON2_VESTA_PARAMS`, in both profiles. -/
example (dbg : Bool) : poseidon2Out dbg Poseidon2Vesta.POSEIDON2_VESTA_PARAMS = some (elems _
    [0x261ecbdfd62c617b82d297705f18c788fc9831b14a6a2b8f61229bef68ce2792,
     0x2c76327e0b7653873263158cf8545c282364b183880fcdea93ca8526d518c66f,
     0x262316c0ce5244838c75873299b59d763ae0849d2dd31bdc95caf7db1c2901bf]) := by
  cases dbg <;> decide +kernel

theorem plain_POSEIDON_BLS_2_PARAMS (dbg : Bool) : poseidonPlainOut dbg PoseidonBls12.POSEIDON_BLS_2_PARAMS = some (elems _
    [0x1dc37ce34aeee058292bb73bff9acffce73a8a92f3d6d1daa8b77d9516b5c837,
     0x534cc8001b9c21da25d62749e136ea3d702651ba129f0d5ed7847cf81bc8b042]) := by
  cases dbg <;> decide +kernel

/-- `src/poseidon/poseidon.rs` lines 212-240, `POSEIDON_BLS_2_PARAMS`, in both profiles. -/
example (dbg : Bool) [Fact PoseidonBls12.POSEIDON_BLS_2_PARAMS.modulus.Prime] :
    ∃ P, PoseidonBls12.POSEIDON_BLS_2_PARAMS.params dbg = some P ∧
      Poseidon.permutation dbg P (katInput _ PoseidonBls12.POSEIDON_BLS_2_PARAMS.t) = some (elems _
        [0x1dc37ce34aeee058292bb73bff9acffce73a8a92f3d6d1daa8b77d9516b5c837,
         0x534cc8001b9c21da25d62749e136ea3d702651ba129f0d5ed7847cf81bc8b042]) :=
  poseidon_kat (by simp [Instances.poseidon]) (plain_POSEIDON_BLS_2_PARAMS dbg)

theorem plain_POSEIDON_BLS_3_PARAMS (dbg : Bool) : poseidonPlainOut dbg PoseidonBls12.POSEIDON_BLS_3_PARAMS = some (elems _
    [0x200e6982ac00df8fa65cef1fde9f21373fdbbfd98f2df1eb5fa04f3302ab0397,
     0x2233c9a40d91c1f643b700f836a1ac231c3f3a8d438ad1609355e1b7317a47e5,
     0x2eae6736db3c086ad29938869dedbf969dd9804a58aa228ec467b7d5a08dc765]) := by
  cases dbg <;> decide +kernel

/-- `src/poseidon/poseidon.rs` lines 212-240, `POSEIDON_BLS_3_PARAMS`, in both profiles. -/
example (dbg : Bool) [Fact PoseidonBls12.POSEIDON_BLS_3_PARAMS.modulus.Prime] :
    ∃ P, PoseidonBls12.POSEIDON_BLS_3_PARAMS.params dbg = some P ∧
      Poseidon.permutation dbg P (katInput _ PoseidonBls12.POSEIDON_BLS_3_PARAMS.t) = some (elems _
        [0x200e6982ac00df8fa65cef1fde9f21373fdbbfd98f2df1eb5fa04f3302ab0397,
         0x2233c9a40d91c1f643b700f836a1ac231c3f3a8d438ad1609355e1b7317a47e5,
         0x2eae6736db3c086ad29938869dedbf969dd9804a58aa228ec467b7d5a08dc765]) :=
  poseidon_kat (by simp [Instances.poseidon]) (plain_POSEIDON_BLS_3_PARAMS dbg)

theorem plain_POSEIDON_BN_PARAMS (dbg : Bool) : poseidonPlainOut dbg PoseidonBn256.POSEIDON_BN_PARAMS = some (elems _
    [0x2677d68d9cfa91f197bf5148b50afac461b6b8340ff119a5217794770baade5f,
     0x21ae9d716173496b62c76ad7deb4654961f64334441bcf77e17a047155a3239f,
     0x008f8e7c73ff20b6a141c48cef73215860acc749b14f0a7887f74950215169c6]) := by
  cases dbg <;> decide +kernel

/-- `src/poseidon/poseidon.rs` lines 296-312, `POSEIDON_BN_PARAMS`, in both profiles. -/
example (dbg : Bool) [Fact PoseidonBn256.POSEIDON_BN_PARAMS.modulus.Prime] :
    ∃ P, PoseidonBn256.POSEIDON_BN_PARAMS.params dbg = some P ∧
      Poseidon.permutation dbg P (katInput _ PoseidonBn256.POSEIDON_BN_PARAMS.t) = some (elems _
        [0x2677d68d9cfa91f197bf5148b50afac461b6b8340ff119a5217794770baade5f,
         0x21ae9d716173496b62c76ad7deb4654961f64334441bcf77e17a047155a3239f,
         0x008f8e7c73ff20b6a141c48cef73215860acc749b14f0a7887f74950215169c6]) :=
  poseidon_kat (by simp [Instances.poseidon]) (plain_POSEIDON_BN_PARAMS dbg)

theorem plain_POSEIDON_GOLDILOCKS_12_PARAMS (dbg : Bool) : poseidonPlainOut dbg PoseidonGoldilocks.POSEIDON_GOLDILOCKS_12_PARAMS = some (elems _
    [0xe9ad770762f48ef5,
     0xc12796961ddc7859,
     0xa61b71de9595e016,
     0xead9e6aa583aafa3,
     0x93e297beff76e95b,
     0x53abd3c5c2a0e924,
     0xf3bc50e655c74f51,
     0x246cac41b9a45d84,
     0xcc7f9314b2341f4f,
     0xf5f071587c83415c,
     0x09486cf35116fba3,
     0x9d82aaf136b5c38a]) := by
  cases dbg <;> decide +kernel

/-- `src/poseidon/poseidon.rs` lines 376-432, `POSEIDON_GOLDILOCKS_12_PARAMS`, in both profiles. -/
example (dbg : Bool) [Fact PoseidonGoldilocks.POSEIDON_GOLDILOCKS_12_PARAMS.modulus.Prime] :
    ∃ P, PoseidonGoldilocks.POSEIDON_GOLDILOCKS_12_PARAMS.params dbg = some P ∧
      Poseidon.permutation dbg P (katInput _ PoseidonGoldilocks.POSEIDON_GOLDILOCKS_12_PARAMS.t) = some (elems _
        [0xe9ad770762f48ef5,
         0xc12796961ddc7859,
         0xa61b71de9595e016,
         0xead9e6aa583aafa3,
         0x93e297beff76e95b,
         0x53abd3c5c2a0e924,
         0xf3bc50e655c74f51,
         0x246cac41b9a45d84,
         0xcc7f9314b2341f4f,
         0xf5f071587c83415c,
         0x09486cf35116fba3,
         0x9d82aaf136b5c38a]) :=
  poseidon_kat (by simp [Instances.poseidon]) (plain_POSEIDON_GOLDILOCKS_12_PARAMS dbg)

theorem plain_POSEIDON_PALLAS_3_PARAMS (dbg : Bool) : poseidonPlainOut dbg PoseidonPallas.POSEIDON_PALLAS_3_PARAMS = some (elems _
    [0x08fd69dd1602112194d1fefd8c2b20242e371879feba6683a4bdeebd6e8f121c,
     0x2a17023cc2483bf305661df2580c3b29444f8b954de7f2166091592ba7728591,
     0x1495649c6632dd6202315e468aa08b1392b750dfe0d2b3bbc902e230355e9615]) := by
  cases dbg <;> decide +kernel

/-- `src/poseidon/poseidon.rs` lines 564-580, `POSEIDON_PALLAS_3_PARAMS`, in both profiles. -/
example (dbg : Bool) [Fact PoseidonPallas.POSEIDON_PALLAS_3_PARAMS.modulus.Prime] :
    ∃ P, PoseidonPallas.POSEIDON_PALLAS_3_PARAMS.params dbg = some P ∧
      Poseidon.permutation dbg P (katInput _ PoseidonPallas.POSEIDON_PALLAS_3_PARAMS.t) = some (elems _
        [0x08fd69dd1602112194d1fefd8c2b20242e371879feba6683a4bdeebd6e8f121c,
         0x2a17023cc2483bf305661df2580c3b29444f8b954de7f2166091592ba7728591,
         0x1495649c6632dd6202315e468aa08b1392b750dfe0d2b3bbc902e230355e9615]) :=
  poseidon_kat (by simp [Instances.poseidon]) (plain_POSEIDON_PALLAS_3_PARAMS dbg)

theorem plain_POSEIDON_VESTA_PARAMS (dbg : Bool) : poseidonPlainOut dbg PoseidonVesta.POSEIDON_VESTA_PARAMS = some (elems _
    [0x32e8b71fc2963b1c2371a5a9e191671079b3e059d9683027b146bd5d34cea133,
     0x005e6cd1461b0470c03f045e8fba078846bbdbb0992c37fc6f4764ebdb92a1d6,
     0x162f4406f334d8600c569b3172e75abf00f6c201871d4fff9834cedd0c8aa5d3]) := by
  cases dbg <;> decide +kernel

/-- `src/poseidon/poseidon.rs` lines 638-654, `POSEIDON_VESTA_PARAMS`, in both profiles. -/
example (dbg : Bool) [Fact PoseidonVesta.POSEIDON_VESTA_PARAMS.modulus.Prime] :
    ∃ P, PoseidonVesta.POSEIDON_VESTA_PARAMS.params dbg = some P ∧
      Poseidon.permutation dbg P (katInput _ PoseidonVesta.POSEIDON_VESTA_PARAMS.t) = some (elems _
        [0x32e8b71fc2963b1c2371a5a9e191671079b3e059d9683027b146bd5d34cea133,
         0x005e6cd1461b0470c03f045e8fba078846bbdbb0992c37fc6f4764ebdb92a1d6,
         0x162f4406f334d8600c569b3172e75abf00f6c201871d4fff9834cedd0c8aa5d3]) :=
  poseidon_kat (by simp [Instances.poseidon]) (plain_POSEIDON_VESTA_PARAMS dbg)

end ZkHash.Tests
