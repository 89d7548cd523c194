import Verif.Proofs.Pratt
import Mathlib.Tactic.NormNum.Prime

set_option autoImplicit false

/-!
# Primality certificates of the field moduli

Generated by `tools/gen_primes.py`: for each prime a witness and the factors of `p - 1`, down to primes below 2000.
For the six moduli the witness is the declared generator.
-/

namespace ZkHash.Primes

theorem prime_2 : Nat.Prime 2 := by norm_num
theorem prime_3 : Nat.Prime 3 := by norm_num
theorem prime_5 : Nat.Prime 5 := by norm_num
theorem order_2013265921 :
    Nat.Prime 2013265921 ∧
    orderOf ((31 : Nat) : ZMod 2013265921) =
      2013265921 - 1 :=
  pratt 2013265921 31
    [(2, 27), (3, 1), (5, 1)]
    (by decide +kernel) (.cons prime_2 (.cons prime_3 (.cons prime_5 .nil)))
theorem prime_2013265921 :
    Nat.Prime 2013265921 := order_2013265921.1
theorem prime_17 : Nat.Prime 17 := by norm_num
theorem prime_257 : Nat.Prime 257 := by norm_num
theorem order_65537 :
    Nat.Prime 65537 ∧
    orderOf ((3 : Nat) : ZMod 65537) =
      65537 - 1 :=
  pratt 65537 3
    [(2, 16)]
    (by decide +kernel) (.cons prime_2 .nil)
theorem prime_65537 :
    Nat.Prime 65537 := order_65537.1
theorem order_18446744069414584321 :
    Nat.Prime 18446744069414584321 ∧
    orderOf ((7 : Nat) : ZMod 18446744069414584321) =
      18446744069414584321 - 1 :=
  pratt 18446744069414584321 7
    [(2, 32), (3, 1), (5, 1), (17, 1), (257, 1), (65537, 1)]
    (by decide +kernel) (.cons prime_2 (.cons prime_3 (.cons prime_5 (.cons prime_17 (.cons prime_257 (.cons prime_65537 .nil))))))
theorem prime_18446744069414584321 :
    Nat.Prime 18446744069414584321 := order_18446744069414584321.1
theorem prime_11 : Nat.Prime 11 := by norm_num
theorem prime_19 : Nat.Prime 19 := by norm_num
theorem prime_53 : Nat.Prime 53 := by norm_num
theorem order_10177 :
    Nat.Prime 10177 ∧
    orderOf ((7 : Nat) : ZMod 10177) =
      10177 - 1 :=
  pratt 10177 7
    [(2, 6), (3, 1), (53, 1)]
    (by decide +kernel) (.cons prime_2 (.cons prime_3 (.cons prime_53 .nil)))
theorem prime_10177 :
    Nat.Prime 10177 := order_10177.1
theorem prime_523 : Nat.Prime 523 := by norm_num
theorem order_20921 :
    Nat.Prime 20921 ∧
    orderOf ((3 : Nat) : ZMod 20921) =
      20921 - 1 :=
  pratt 20921 3
    [(2, 3), (5, 1), (523, 1)]
    (by decide +kernel) (.cons prime_2 (.cons prime_5 (.cons prime_523 .nil)))
theorem prime_20921 :
    Nat.Prime 20921 := order_20921.1
theorem order_125527 :
    Nat.Prime 125527 ∧
    orderOf ((5 : Nat) : ZMod 125527) =
      125527 - 1 :=
  pratt 125527 5
    [(2, 1), (3, 1), (20921, 1)]
    (by decide +kernel) (.cons prime_2 (.cons prime_3 (.cons prime_20921 .nil)))
theorem prime_125527 :
    Nat.Prime 125527 := order_125527.1
theorem prime_13 : Nat.Prime 13 := by norm_num
theorem order_47737 :
    Nat.Prime 47737 ∧
    orderOf ((5 : Nat) : ZMod 47737) =
      47737 - 1 :=
  pratt 47737 5
    [(2, 3), (3, 3), (13, 1), (17, 1)]
    (by decide +kernel) (.cons prime_2 (.cons prime_3 (.cons prime_13 (.cons prime_17 .nil))))
theorem prime_47737 :
    Nat.Prime 47737 := order_47737.1
theorem order_859267 :
    Nat.Prime 859267 ∧
    orderOf ((2 : Nat) : ZMod 859267) =
      859267 - 1 :=
  pratt 859267 2
    [(2, 1), (3, 2), (47737, 1)]
    (by decide +kernel) (.cons prime_2 (.cons prime_3 (.cons prime_47737 .nil)))
theorem prime_859267 :
    Nat.Prime 859267 := order_859267.1
theorem prime_47 : Nat.Prime 47 := by norm_num
theorem prime_1607 : Nat.Prime 1607 := by norm_num
theorem order_906349 :
    Nat.Prime 906349 ∧
    orderOf ((2 : Nat) : ZMod 906349) =
      906349 - 1 :=
  pratt 906349 2
    [(2, 2), (3, 1), (47, 1), (1607, 1)]
    (by decide +kernel) (.cons prime_2 (.cons prime_3 (.cons prime_47 (.cons prime_1607 .nil))))
theorem prime_906349 :
    Nat.Prime 906349 := order_906349.1
theorem prime_7 : Nat.Prime 7 := by norm_num
theorem prime_79 : Nat.Prime 79 := by norm_num
theorem order_2508409 :
    Nat.Prime 2508409 ∧
    orderOf ((11 : Nat) : ZMod 2508409) =
      2508409 - 1 :=
  pratt 2508409 11
    [(2, 3), (3, 4), (7, 2), (79, 1)]
    (by decide +kernel) (.cons prime_2 (.cons prime_3 (.cons prime_7 (.cons prime_79 .nil))))
theorem prime_2508409 :
    Nat.Prime 2508409 := order_2508409.1
theorem prime_23 : Nat.Prime 23 := by norm_num
theorem prime_29 : Nat.Prime 29 := by norm_num
theorem order_18329 :
    Nat.Prime 18329 ∧
    orderOf ((3 : Nat) : ZMod 18329) =
      18329 - 1 :=
  pratt 18329 3
    [(2, 3), (29, 1), (79, 1)]
    (by decide +kernel) (.cons prime_2 (.cons prime_29 (.cons prime_79 .nil)))
theorem prime_18329 :
    Nat.Prime 18329 := order_18329.1
theorem order_2529403 :
    Nat.Prime 2529403 ∧
    orderOf ((2 : Nat) : ZMod 2529403) =
      2529403 - 1 :=
  pratt 2529403 2
    [(2, 1), (3, 1), (23, 1), (18329, 1)]
    (by decide +kernel) (.cons prime_2 (.cons prime_3 (.cons prime_23 (.cons prime_18329 .nil))))
theorem prime_2529403 :
    Nat.Prime 2529403 := order_2529403.1
theorem prime_43 : Nat.Prime 43 := by norm_num
theorem prime_97 : Nat.Prime 97 := by norm_num
theorem prime_449 : Nat.Prime 449 := by norm_num
theorem order_609743 :
    Nat.Prime 609743 ∧
    orderOf ((5 : Nat) : ZMod 609743) =
      609743 - 1 :=
  pratt 609743 5
    [(2, 1), (7, 1), (97, 1), (449, 1)]
    (by decide +kernel) (.cons prime_2 (.cons prime_7 (.cons prime_97 (.cons prime_449 .nil))))
theorem prime_609743 :
    Nat.Prime 609743 := order_609743.1
theorem order_52437899 :
    Nat.Prime 52437899 ∧
    orderOf ((2 : Nat) : ZMod 52437899) =
      52437899 - 1 :=
  pratt 52437899 2
    [(2, 1), (43, 1), (609743, 1)]
    (by decide +kernel) (.cons prime_2 (.cons prime_43 (.cons prime_609743 .nil)))
theorem prime_52437899 :
    Nat.Prime 52437899 := order_52437899.1
theorem prime_359 : Nat.Prime 359 := by norm_num
theorem order_110573 :
    Nat.Prime 110573 ∧
    orderOf ((3 : Nat) : ZMod 110573) =
      110573 - 1 :=
  pratt 110573 3
    [(2, 2), (7, 1), (11, 1), (359, 1)]
    (by decide +kernel) (.cons prime_2 (.cons prime_7 (.cons prime_11 (.cons prime_359 .nil))))
theorem prime_110573 :
    Nat.Prime 110573 := order_110573.1
theorem order_2653753 :
    Nat.Prime 2653753 ∧
    orderOf ((5 : Nat) : ZMod 2653753) =
      2653753 - 1 :=
  pratt 2653753 5
    [(2, 3), (3, 1), (110573, 1)]
    (by decide +kernel) (.cons prime_2 (.cons prime_3 (.cons prime_110573 .nil)))
theorem prime_2653753 :
    Nat.Prime 2653753 := order_2653753.1
theorem order_63690073 :
    Nat.Prime 63690073 ∧
    orderOf ((7 : Nat) : ZMod 63690073) =
      63690073 - 1 :=
  pratt 63690073 7
    [(2, 3), (3, 1), (2653753, 1)]
    (by decide +kernel) (.cons prime_2 (.cons prime_3 (.cons prime_2653753 .nil)))
theorem prime_63690073 :
    Nat.Prime 63690073 := order_63690073.1
theorem order_254760293 :
    Nat.Prime 254760293 ∧
    orderOf ((2 : Nat) : ZMod 254760293) =
      254760293 - 1 :=
  pratt 254760293 2
    [(2, 2), (63690073, 1)]
    (by decide +kernel) (.cons prime_2 (.cons prime_63690073 .nil))
theorem prime_254760293 :
    Nat.Prime 254760293 := order_254760293.1
theorem order_52435875175126190479447740508185965837690552500527637822603658699938581184513 :
    Nat.Prime 52435875175126190479447740508185965837690552500527637822603658699938581184513 ∧
    orderOf ((7 : Nat) : ZMod 52435875175126190479447740508185965837690552500527637822603658699938581184513) =
      52435875175126190479447740508185965837690552500527637822603658699938581184513 - 1 :=
  pratt 52435875175126190479447740508185965837690552500527637822603658699938581184513 7
    [(2, 32), (3, 1), (11, 1), (19, 1), (10177, 1), (125527, 1), (859267, 1), (906349, 2), (2508409, 1), (2529403, 1), (52437899, 1), (254760293, 2)]
    (by decide +kernel) (.cons prime_2 (.cons prime_3 (.cons prime_11 (.cons prime_19 (.cons prime_10177 (.cons prime_125527 (.cons prime_859267 (.cons prime_906349 (.cons prime_2508409 (.cons prime_2529403 (.cons prime_52437899 (.cons prime_254760293 .nil))))))))))))
theorem prime_52435875175126190479447740508185965837690552500527637822603658699938581184513 :
    Nat.Prime 52435875175126190479447740508185965837690552500527637822603658699938581184513 := order_52435875175126190479447740508185965837690552500527637822603658699938581184513.1
theorem prime_983 : Nat.Prime 983 := by norm_num
theorem order_5501 :
    Nat.Prime 5501 ∧
    orderOf ((2 : Nat) : ZMod 5501) =
      5501 - 1 :=
  pratt 5501 2
    [(2, 2), (5, 3), (11, 1)]
    (by decide +kernel) (.cons prime_2 (.cons prime_5 (.cons prime_11 .nil)))
theorem prime_5501 :
    Nat.Prime 5501 := order_5501.1
theorem order_11003 :
    Nat.Prime 11003 ∧
    orderOf ((2 : Nat) : ZMod 11003) =
      11003 - 1 :=
  pratt 11003 2
    [(2, 1), (5501, 1)]
    (by decide +kernel) (.cons prime_2 (.cons prime_5501 .nil))
theorem prime_11003 :
    Nat.Prime 11003 := order_11003.1
theorem order_237073 :
    Nat.Prime 237073 ∧
    orderOf ((15 : Nat) : ZMod 237073) =
      237073 - 1 :=
  pratt 237073 15
    [(2, 4), (3, 1), (11, 1), (449, 1)]
    (by decide +kernel) (.cons prime_2 (.cons prime_3 (.cons prime_11 (.cons prime_449 .nil))))
theorem prime_237073 :
    Nat.Prime 237073 := order_237073.1
theorem prime_41 : Nat.Prime 41 := by norm_num
theorem order_3691 :
    Nat.Prime 3691 ∧
    orderOf ((2 : Nat) : ZMod 3691) =
      3691 - 1 :=
  pratt 3691 2
    [(2, 1), (3, 2), (5, 1), (41, 1)]
    (by decide +kernel) (.cons prime_2 (.cons prime_3 (.cons prime_5 (.cons prime_41 .nil))))
theorem prime_3691 :
    Nat.Prime 3691 := order_3691.1
theorem order_4999 :
    Nat.Prime 4999 ∧
    orderOf ((3 : Nat) : ZMod 4999) =
      4999 - 1 :=
  pratt 4999 3
    [(2, 1), (3, 1), (7, 2), (17, 1)]
    (by decide +kernel) (.cons prime_2 (.cons prime_3 (.cons prime_7 (.cons prime_17 .nil))))
theorem prime_4999 :
    Nat.Prime 4999 := order_4999.1
theorem order_405928799 :
    Nat.Prime 405928799 ∧
    orderOf ((22 : Nat) : ZMod 405928799) =
      405928799 - 1 :=
  pratt 405928799 22
    [(2, 1), (11, 1), (3691, 1), (4999, 1)]
    (by decide +kernel) (.cons prime_2 (.cons prime_11 (.cons prime_3691 (.cons prime_4999 .nil))))
theorem prime_405928799 :
    Nat.Prime 405928799 := order_405928799.1
theorem prime_107 : Nat.Prime 107 := by norm_num
theorem prime_661 : Nat.Prime 661 := by norm_num
theorem prime_31 : Nat.Prime 31 := by norm_num
theorem order_93001 :
    Nat.Prime 93001 ∧
    orderOf ((14 : Nat) : ZMod 93001) =
      93001 - 1 :=
  pratt 93001 14
    [(2, 3), (3, 1), (5, 3), (31, 1)]
    (by decide +kernel) (.cons prime_2 (.cons prime_3 (.cons prime_5 (.cons prime_31 .nil))))
theorem prime_93001 :
    Nat.Prime 93001 := order_93001.1
theorem order_12048837557 :
    Nat.Prime 12048837557 ∧
    orderOf ((2 : Nat) : ZMod 12048837557) =
      12048837557 - 1 :=
  pratt 12048837557 2
    [(2, 2), (7, 2), (661, 1), (93001, 1)]
    (by decide +kernel) (.cons prime_2 (.cons prime_7 (.cons prime_661 (.cons prime_93001 .nil))))
theorem prime_12048837557 :
    Nat.Prime 12048837557 := order_12048837557.1
theorem order_5156902474397 :
    Nat.Prime 5156902474397 ∧
    orderOf ((2 : Nat) : ZMod 5156902474397) =
      5156902474397 - 1 :=
  pratt 5156902474397 2
    [(2, 2), (107, 1), (12048837557, 1)]
    (by decide +kernel) (.cons prime_2 (.cons prime_107 (.cons prime_12048837557 .nil)))
theorem prime_5156902474397 :
    Nat.Prime 5156902474397 := order_5156902474397.1
theorem order_1670836401704629 :
    Nat.Prime 1670836401704629 ∧
    orderOf ((2 : Nat) : ZMod 1670836401704629) =
      1670836401704629 - 1 :=
  pratt 1670836401704629 2
    [(2, 2), (3, 4), (5156902474397, 1)]
    (by decide +kernel) (.cons prime_2 (.cons prime_3 (.cons prime_5156902474397 .nil)))
theorem prime_1670836401704629 :
    Nat.Prime 1670836401704629 := order_1670836401704629.1
theorem prime_823 : Nat.Prime 823 := by norm_num
theorem prime_223 : Nat.Prime 223 := by norm_num
theorem order_20963 :
    Nat.Prime 20963 ∧
    orderOf ((2 : Nat) : ZMod 20963) =
      20963 - 1 :=
  pratt 20963 2
    [(2, 1), (47, 1), (223, 1)]
    (by decide +kernel) (.cons prime_2 (.cons prime_47 (.cons prime_223 .nil)))
theorem prime_20963 :
    Nat.Prime 20963 := order_20963.1
theorem order_41927 :
    Nat.Prime 41927 ∧
    orderOf ((5 : Nat) : ZMod 41927) =
      41927 - 1 :=
  pratt 41927 5
    [(2, 1), (20963, 1)]
    (by decide +kernel) (.cons prime_2 (.cons prime_20963 .nil))
theorem prime_41927 :
    Nat.Prime 41927 := order_41927.1
theorem order_1593227 :
    Nat.Prime 1593227 ∧
    orderOf ((2 : Nat) : ZMod 1593227) =
      1593227 - 1 :=
  pratt 1593227 2
    [(2, 1), (19, 1), (41927, 1)]
    (by decide +kernel) (.cons prime_2 (.cons prime_19 (.cons prime_41927 .nil)))
theorem prime_1593227 :
    Nat.Prime 1593227 := order_1593227.1
theorem prime_83 : Nat.Prime 83 := by norm_num
theorem prime_379 : Nat.Prime 379 := by norm_num
theorem prime_1637 : Nat.Prime 1637 := by norm_num
theorem prime_229 : Nat.Prime 229 := by norm_num
theorem prime_853 : Nat.Prime 853 := by norm_num
theorem order_639533339 :
    Nat.Prime 639533339 ∧
    orderOf ((2 : Nat) : ZMod 639533339) =
      639533339 - 1 :=
  pratt 639533339 2
    [(2, 1), (229, 1), (853, 1), (1637, 1)]
    (by decide +kernel) (.cons prime_2 (.cons prime_229 (.cons prime_853 (.cons prime_1637 .nil))))
theorem prime_639533339 :
    Nat.Prime 639533339 := order_639533339.1
theorem order_65865678001877903 :
    Nat.Prime 65865678001877903 ∧
    orderOf ((5 : Nat) : ZMod 65865678001877903) =
      65865678001877903 - 1 :=
  pratt 65865678001877903 5
    [(2, 1), (83, 1), (379, 1), (1637, 1), (639533339, 1)]
    (by decide +kernel) (.cons prime_2 (.cons prime_83 (.cons prime_379 (.cons prime_1637 (.cons prime_639533339 .nil)))))
theorem prime_65865678001877903 :
    Nat.Prime 65865678001877903 := order_65865678001877903.1
theorem order_13818364434197438864469338081 :
    Nat.Prime 13818364434197438864469338081 ∧
    orderOf ((3 : Nat) : ZMod 13818364434197438864469338081) =
      13818364434197438864469338081 - 1 :=
  pratt 13818364434197438864469338081 3
    [(2, 5), (5, 1), (823, 1), (1593227, 1), (65865678001877903, 1)]
    (by decide +kernel) (.cons prime_2 (.cons prime_5 (.cons prime_823 (.cons prime_1593227 (.cons prime_65865678001877903 .nil)))))
theorem prime_13818364434197438864469338081 :
    Nat.Prime 13818364434197438864469338081 := order_13818364434197438864469338081.1
theorem order_21888242871839275222246405745257275088548364400416034343698204186575808495617 :
    Nat.Prime 21888242871839275222246405745257275088548364400416034343698204186575808495617 ∧
    orderOf ((7 : Nat) : ZMod 21888242871839275222246405745257275088548364400416034343698204186575808495617) =
      21888242871839275222246405745257275088548364400416034343698204186575808495617 - 1 :=
  pratt 21888242871839275222246405745257275088548364400416034343698204186575808495617 7
    [(2, 28), (3, 2), (13, 1), (29, 1), (983, 1), (11003, 1), (237073, 1), (405928799, 1), (1670836401704629, 1), (13818364434197438864469338081, 1)]
    (by decide +kernel) (.cons prime_2 (.cons prime_3 (.cons prime_13 (.cons prime_29 (.cons prime_983 (.cons prime_11003 (.cons prime_237073 (.cons prime_405928799 (.cons prime_1670836401704629 (.cons prime_13818364434197438864469338081 .nil))))))))))
theorem prime_21888242871839275222246405745257275088548364400416034343698204186575808495617 :
    Nat.Prime 21888242871839275222246405745257275088548364400416034343698204186575808495617 := order_21888242871839275222246405745257275088548364400416034343698204186575808495617.1
theorem prime_463 : Nat.Prime 463 := by norm_num
theorem prime_89 : Nat.Prime 89 := by norm_num
theorem prime_829 : Nat.Prime 829 := by norm_num
theorem order_14923 :
    Nat.Prime 14923 ∧
    orderOf ((2 : Nat) : ZMod 14923) =
      14923 - 1 :=
  pratt 14923 2
    [(2, 1), (3, 2), (829, 1)]
    (by decide +kernel) (.cons prime_2 (.cons prime_3 (.cons prime_829 .nil)))
theorem prime_14923 :
    Nat.Prime 14923 := order_14923.1
theorem prime_59 : Nat.Prime 59 := by norm_num
theorem prime_1973 : Nat.Prime 1973 := by norm_num
theorem prime_173 : Nat.Prime 173 := by norm_num
theorem order_6229 :
    Nat.Prime 6229 ∧
    orderOf ((2 : Nat) : ZMod 6229) =
      6229 - 1 :=
  pratt 6229 2
    [(2, 2), (3, 2), (173, 1)]
    (by decide +kernel) (.cons prime_2 (.cons prime_3 (.cons prime_173 .nil)))
theorem prime_6229 :
    Nat.Prime 6229 := order_6229.1
theorem order_24917 :
    Nat.Prime 24917 ∧
    orderOf ((2 : Nat) : ZMod 24917) =
      24917 - 1 :=
  pratt 24917 2
    [(2, 2), (6229, 1)]
    (by decide +kernel) (.cons prime_2 (.cons prime_6229 .nil))
theorem prime_24917 :
    Nat.Prime 24917 := order_24917.1
theorem order_149503 :
    Nat.Prime 149503 ∧
    orderOf ((3 : Nat) : ZMod 149503) =
      149503 - 1 :=
  pratt 149503 3
    [(2, 1), (3, 1), (24917, 1)]
    (by decide +kernel) (.cons prime_2 (.cons prime_3 (.cons prime_24917 .nil)))
theorem prime_149503 :
    Nat.Prime 149503 := order_149503.1
theorem order_897019 :
    Nat.Prime 897019 ∧
    orderOf ((2 : Nat) : ZMod 897019) =
      897019 - 1 :=
  pratt 897019 2
    [(2, 1), (3, 1), (149503, 1)]
    (by decide +kernel) (.cons prime_2 (.cons prime_3 (.cons prime_149503 .nil)))
theorem prime_897019 :
    Nat.Prime 897019 := order_897019.1
theorem order_417677162933 :
    Nat.Prime 417677162933 ∧
    orderOf ((2 : Nat) : ZMod 417677162933) =
      417677162933 - 1 :=
  pratt 417677162933 2
    [(2, 2), (59, 1), (1973, 1), (897019, 1)]
    (by decide +kernel) (.cons prime_2 (.cons prime_59 (.cons prime_1973 (.cons prime_897019 .nil))))
theorem prime_417677162933 :
    Nat.Prime 417677162933 := order_417677162933.1
theorem order_539204044132271846773 :
    Nat.Prime 539204044132271846773 ∧
    orderOf ((5 : Nat) : ZMod 539204044132271846773) =
      539204044132271846773 - 1 :=
  pratt 539204044132271846773 5
    [(2, 2), (3, 5), (89, 1), (14923, 1), (417677162933, 1)]
    (by decide +kernel) (.cons prime_2 (.cons prime_3 (.cons prime_89 (.cons prime_14923 (.cons prime_417677162933 .nil)))))
theorem prime_539204044132271846773 :
    Nat.Prime 539204044132271846773 := order_539204044132271846773.1
theorem order_2531 :
    Nat.Prime 2531 ∧
    orderOf ((2 : Nat) : ZMod 2531) =
      2531 - 1 :=
  pratt 2531 2
    [(2, 1), (5, 1), (11, 1), (23, 1)]
    (by decide +kernel) (.cons prime_2 (.cons prime_5 (.cons prime_11 (.cons prime_23 .nil))))
theorem prime_2531 :
    Nat.Prime 2531 := order_2531.1
theorem order_19267 :
    Nat.Prime 19267 ∧
    orderOf ((3 : Nat) : ZMod 19267) =
      19267 - 1 :=
  pratt 19267 3
    [(2, 1), (3, 1), (13, 2), (19, 1)]
    (by decide +kernel) (.cons prime_2 (.cons prime_3 (.cons prime_13 (.cons prime_19 .nil))))
theorem prime_19267 :
    Nat.Prime 19267 := order_19267.1
theorem order_115603 :
    Nat.Prime 115603 ∧
    orderOf ((2 : Nat) : ZMod 115603) =
      115603 - 1 :=
  pratt 115603 2
    [(2, 1), (3, 1), (19267, 1)]
    (by decide +kernel) (.cons prime_2 (.cons prime_3 (.cons prime_19267 .nil)))
theorem prime_115603 :
    Nat.Prime 115603 := order_115603.1
theorem prime_269 : Nat.Prime 269 := by norm_num
theorem order_3767 :
    Nat.Prime 3767 ∧
    orderOf ((5 : Nat) : ZMod 3767) =
      3767 - 1 :=
  pratt 3767 5
    [(2, 1), (7, 1), (269, 1)]
    (by decide +kernel) (.cons prime_2 (.cons prime_7 (.cons prime_269 .nil)))
theorem prime_3767 :
    Nat.Prime 3767 := order_3767.1
theorem order_1197907 :
    Nat.Prime 1197907 ∧
    orderOf ((3 : Nat) : ZMod 1197907) =
      1197907 - 1 :=
  pratt 1197907 3
    [(2, 1), (3, 1), (53, 1), (3767, 1)]
    (by decide +kernel) (.cons prime_2 (.cons prime_3 (.cons prime_53 (.cons prime_3767 .nil))))
theorem prime_1197907 :
    Nat.Prime 1197907 := order_1197907.1
theorem prime_977 : Nat.Prime 977 := by norm_num
theorem order_6942563 :
    Nat.Prime 6942563 ∧
    orderOf ((2 : Nat) : ZMod 6942563) =
      6942563 - 1 :=
  pratt 6942563 2
    [(2, 1), (11, 1), (17, 1), (19, 1), (977, 1)]
    (by decide +kernel) (.cons prime_2 (.cons prime_11 (.cons prime_17 (.cons prime_19 (.cons prime_977 .nil)))))
theorem prime_6942563 :
    Nat.Prime 6942563 := order_6942563.1
theorem order_41655379 :
    Nat.Prime 41655379 ∧
    orderOf ((2 : Nat) : ZMod 41655379) =
      41655379 - 1 :=
  pratt 41655379 2
    [(2, 1), (3, 1), (6942563, 1)]
    (by decide +kernel) (.cons prime_2 (.cons prime_3 (.cons prime_6942563 .nil)))
theorem prime_41655379 :
    Nat.Prime 41655379 := order_41655379.1
theorem order_22160661629 :
    Nat.Prime 22160661629 ∧
    orderOf ((3 : Nat) : ZMod 22160661629) =
      22160661629 - 1 :=
  pratt 22160661629 3
    [(2, 2), (7, 1), (19, 1), (41655379, 1)]
    (by decide +kernel) (.cons prime_2 (.cons prime_7 (.cons prime_19 (.cons prime_41655379 .nil))))
theorem prime_22160661629 :
    Nat.Prime 22160661629 := order_22160661629.1
theorem prime_509 : Nat.Prime 509 := by norm_num
theorem order_413527 :
    Nat.Prime 413527 ∧
    orderOf ((3 : Nat) : ZMod 413527) =
      413527 - 1 :=
  pratt 413527 3
    [(2, 1), (3, 1), (41, 3)]
    (by decide +kernel) (.cons prime_2 (.cons prime_3 (.cons prime_41 .nil)))
theorem prime_413527 :
    Nat.Prime 413527 := order_413527.1
theorem order_25741 :
    Nat.Prime 25741 ∧
    orderOf ((6 : Nat) : ZMod 25741) =
      25741 - 1 :=
  pratt 25741 6
    [(2, 2), (3, 2), (5, 1), (11, 1), (13, 1)]
    (by decide +kernel) (.cons prime_2 (.cons prime_3 (.cons prime_5 (.cons prime_11 (.cons prime_13 .nil)))))
theorem prime_25741 :
    Nat.Prime 25741 := order_25741.1
theorem order_772231 :
    Nat.Prime 772231 ∧
    orderOf ((6 : Nat) : ZMod 772231) =
      772231 - 1 :=
  pratt 772231 6
    [(2, 1), (3, 1), (5, 1), (25741, 1)]
    (by decide +kernel) (.cons prime_2 (.cons prime_3 (.cons prime_5 (.cons prime_25741 .nil))))
theorem prime_772231 :
    Nat.Prime 772231 := order_772231.1
theorem order_325086459374267 :
    Nat.Prime 325086459374267 ∧
    orderOf ((2 : Nat) : ZMod 325086459374267) =
      325086459374267 - 1 :=
  pratt 325086459374267 2
    [(2, 1), (509, 1), (413527, 1), (772231, 1)]
    (by decide +kernel) (.cons prime_2 (.cons prime_509 (.cons prime_413527 (.cons prime_772231 .nil))))
theorem prime_325086459374267 :
    Nat.Prime 325086459374267 := order_325086459374267.1
theorem order_8999194758858563409123804352480028797519453 :
    Nat.Prime 8999194758858563409123804352480028797519453 ∧
    orderOf ((2 : Nat) : ZMod 8999194758858563409123804352480028797519453) =
      8999194758858563409123804352480028797519453 - 1 :=
  pratt 8999194758858563409123804352480028797519453 2
    [(2, 2), (3, 4), (11, 1), (2531, 1), (115603, 1), (1197907, 1), (22160661629, 1), (325086459374267, 1)]
    (by decide +kernel) (.cons prime_2 (.cons prime_3 (.cons prime_11 (.cons prime_2531 (.cons prime_115603 (.cons prime_1197907 (.cons prime_22160661629 (.cons prime_325086459374267 .nil))))))))
theorem prime_8999194758858563409123804352480028797519453 :
    Nat.Prime 8999194758858563409123804352480028797519453 := order_8999194758858563409123804352480028797519453.1
theorem order_28948022309329048855892746252171976963363056481941560715954676764349967630337 :
    Nat.Prime 28948022309329048855892746252171976963363056481941560715954676764349967630337 ∧
    orderOf ((5 : Nat) : ZMod 28948022309329048855892746252171976963363056481941560715954676764349967630337) =
      28948022309329048855892746252171976963363056481941560715954676764349967630337 - 1 :=
  pratt 28948022309329048855892746252171976963363056481941560715954676764349967630337 5
    [(2, 32), (3, 1), (463, 1), (539204044132271846773, 1), (8999194758858563409123804352480028797519453, 1)]
    (by decide +kernel) (.cons prime_2 (.cons prime_3 (.cons prime_463 (.cons prime_539204044132271846773 (.cons prime_8999194758858563409123804352480028797519453 .nil)))))
theorem prime_28948022309329048855892746252171976963363056481941560715954676764349967630337 :
    Nat.Prime 28948022309329048855892746252171976963363056481941560715954676764349967630337 := order_28948022309329048855892746252171976963363056481941560715954676764349967630337.1
theorem prime_1709 : Nat.Prime 1709 := by norm_num
theorem prime_1381 : Nat.Prime 1381 := by norm_num
theorem order_24859 :
    Nat.Prime 24859 ∧
    orderOf ((2 : Nat) : ZMod 24859) =
      24859 - 1 :=
  pratt 24859 2
    [(2, 1), (3, 2), (1381, 1)]
    (by decide +kernel) (.cons prime_2 (.cons prime_3 (.cons prime_1381 .nil)))
theorem prime_24859 :
    Nat.Prime 24859 := order_24859.1
theorem order_68477 :
    Nat.Prime 68477 ∧
    orderOf ((2 : Nat) : ZMod 68477) =
      68477 - 1 :=
  pratt 68477 2
    [(2, 2), (17, 1), (19, 1), (53, 1)]
    (by decide +kernel) (.cons prime_2 (.cons prime_17 (.cons prime_19 (.cons prime_53 .nil))))
theorem prime_68477 :
    Nat.Prime 68477 := order_68477.1
theorem order_958679 :
    Nat.Prime 958679 ∧
    orderOf ((7 : Nat) : ZMod 958679) =
      958679 - 1 :=
  pratt 958679 7
    [(2, 1), (7, 1), (68477, 1)]
    (by decide +kernel) (.cons prime_2 (.cons prime_7 (.cons prime_68477 .nil)))
theorem prime_958679 :
    Nat.Prime 958679 := order_958679.1
theorem order_4129989133 :
    Nat.Prime 4129989133 ∧
    orderOf ((5 : Nat) : ZMod 4129989133) =
      4129989133 - 1 :=
  pratt 4129989133 5
    [(2, 2), (3, 1), (359, 1), (958679, 1)]
    (by decide +kernel) (.cons prime_2 (.cons prime_3 (.cons prime_359 (.cons prime_958679 .nil))))
theorem prime_4129989133 :
    Nat.Prime 4129989133 := order_4129989133.1
theorem prime_71 : Nat.Prime 71 := by norm_num
theorem prime_241 : Nat.Prime 241 := by norm_num
theorem order_125803 :
    Nat.Prime 125803 ∧
    orderOf ((3 : Nat) : ZMod 125803) =
      125803 - 1 :=
  pratt 125803 3
    [(2, 1), (3, 2), (29, 1), (241, 1)]
    (by decide +kernel) (.cons prime_2 (.cons prime_3 (.cons prime_29 (.cons prime_241 .nil))))
theorem prime_125803 :
    Nat.Prime 125803 := order_125803.1
theorem order_2012849 :
    Nat.Prime 2012849 ∧
    orderOf ((3 : Nat) : ZMod 2012849) =
      2012849 - 1 :=
  pratt 2012849 3
    [(2, 4), (125803, 1)]
    (by decide +kernel) (.cons prime_2 (.cons prime_125803 .nil))
theorem prime_2012849 :
    Nat.Prime 2012849 := order_2012849.1
theorem order_4025699 :
    Nat.Prime 4025699 ∧
    orderOf ((2 : Nat) : ZMod 4025699) =
      4025699 - 1 :=
  pratt 4025699 2
    [(2, 1), (2012849, 1)]
    (by decide +kernel) (.cons prime_2 (.cons prime_2012849 .nil))
theorem prime_4025699 :
    Nat.Prime 4025699 := order_4025699.1
theorem order_80513981 :
    Nat.Prime 80513981 ∧
    orderOf ((2 : Nat) : ZMod 80513981) =
      80513981 - 1 :=
  pratt 80513981 2
    [(2, 2), (5, 1), (4025699, 1)]
    (by decide +kernel) (.cons prime_2 (.cons prime_5 (.cons prime_4025699 .nil)))
theorem prime_80513981 :
    Nat.Prime 80513981 := order_80513981.1
theorem order_5247740253619 :
    Nat.Prime 5247740253619 ∧
    orderOf ((2 : Nat) : ZMod 5247740253619) =
      5247740253619 - 1 :=
  pratt 5247740253619 2
    [(2, 1), (3, 3), (17, 1), (71, 1), (80513981, 1)]
    (by decide +kernel) (.cons prime_2 (.cons prime_3 (.cons prime_17 (.cons prime_71 (.cons prime_80513981 .nil)))))
theorem prime_5247740253619 :
    Nat.Prime 5247740253619 := order_5247740253619.1
theorem order_1690502597179744445941507 :
    Nat.Prime 1690502597179744445941507 ∧
    orderOf ((2 : Nat) : ZMod 1690502597179744445941507) =
      1690502597179744445941507 - 1 :=
  pratt 1690502597179744445941507 2
    [(2, 1), (3, 1), (13, 1), (4129989133, 1), (5247740253619, 1)]
    (by decide +kernel) (.cons prime_2 (.cons prime_3 (.cons prime_13 (.cons prime_4129989133 (.cons prime_5247740253619 .nil)))))
theorem prime_1690502597179744445941507 :
    Nat.Prime 1690502597179744445941507 := order_1690502597179744445941507.1
theorem order_294793 :
    Nat.Prime 294793 ∧
    orderOf ((10 : Nat) : ZMod 294793) =
      294793 - 1 :=
  pratt 294793 10
    [(2, 3), (3, 1), (71, 1), (173, 1)]
    (by decide +kernel) (.cons prime_2 (.cons prime_3 (.cons prime_71 (.cons prime_173 .nil))))
theorem prime_294793 :
    Nat.Prime 294793 := order_294793.1
theorem prime_827 : Nat.Prime 827 := by norm_num
theorem order_2557 :
    Nat.Prime 2557 ∧
    orderOf ((2 : Nat) : ZMod 2557) =
      2557 - 1 :=
  pratt 2557 2
    [(2, 2), (3, 2), (71, 1)]
    (by decide +kernel) (.cons prime_2 (.cons prime_3 (.cons prime_71 .nil)))
theorem prime_2557 :
    Nat.Prime 2557 := order_2557.1
theorem order_4229279 :
    Nat.Prime 4229279 ∧
    orderOf ((13 : Nat) : ZMod 4229279) =
      4229279 - 1 :=
  pratt 4229279 13
    [(2, 1), (827, 1), (2557, 1)]
    (by decide +kernel) (.cons prime_2 (.cons prime_827 (.cons prime_2557 .nil)))
theorem prime_4229279 :
    Nat.Prime 4229279 := order_4229279.1
theorem order_6091 :
    Nat.Prime 6091 ∧
    orderOf ((7 : Nat) : ZMod 6091) =
      6091 - 1 :=
  pratt 6091 7
    [(2, 1), (3, 1), (5, 1), (7, 1), (29, 1)]
    (by decide +kernel) (.cons prime_2 (.cons prime_3 (.cons prime_5 (.cons prime_7 (.cons prime_29 .nil)))))
theorem prime_6091 :
    Nat.Prime 6091 := order_6091.1
theorem order_5701177 :
    Nat.Prime 5701177 ∧
    orderOf ((7 : Nat) : ZMod 5701177) =
      5701177 - 1 :=
  pratt 5701177 7
    [(2, 3), (3, 2), (13, 1), (6091, 1)]
    (by decide +kernel) (.cons prime_2 (.cons prime_3 (.cons prime_13 (.cons prime_6091 .nil))))
theorem prime_5701177 :
    Nat.Prime 5701177 := order_5701177.1
theorem order_399082391 :
    Nat.Prime 399082391 ∧
    orderOf ((7 : Nat) : ZMod 399082391) =
      399082391 - 1 :=
  pratt 399082391 7
    [(2, 1), (5, 1), (7, 1), (5701177, 1)]
    (by decide +kernel) (.cons prime_2 (.cons prime_5 (.cons prime_7 (.cons prime_5701177 .nil))))
theorem prime_399082391 :
    Nat.Prime 399082391 := order_399082391.1
theorem prime_757 : Nat.Prime 757 := by norm_num
theorem order_3037 :
    Nat.Prime 3037 ∧
    orderOf ((2 : Nat) : ZMod 3037) =
      3037 - 1 :=
  pratt 3037 2
    [(2, 2), (3, 1), (11, 1), (23, 1)]
    (by decide +kernel) (.cons prime_2 (.cons prime_3 (.cons prime_11 (.cons prime_23 .nil))))
theorem prime_3037 :
    Nat.Prime 3037 := order_3037.1
theorem order_12149 :
    Nat.Prime 12149 ∧
    orderOf ((2 : Nat) : ZMod 12149) =
      12149 - 1 :=
  pratt 12149 2
    [(2, 2), (3037, 1)]
    (by decide +kernel) (.cons prime_2 (.cons prime_3037 .nil))
theorem prime_12149 :
    Nat.Prime 12149 := order_12149.1
theorem order_31649 :
    Nat.Prime 31649 ∧
    orderOf ((3 : Nat) : ZMod 31649) =
      31649 - 1 :=
  pratt 31649 3
    [(2, 5), (23, 1), (43, 1)]
    (by decide +kernel) (.cons prime_2 (.cons prime_23 (.cons prime_43 .nil)))
theorem prime_31649 :
    Nat.Prime 31649 := order_31649.1
theorem order_5239247429827 :
    Nat.Prime 5239247429827 ∧
    orderOf ((2 : Nat) : ZMod 5239247429827) =
      5239247429827 - 1 :=
  pratt 5239247429827 2
    [(2, 1), (3, 2), (757, 1), (12149, 1), (31649, 1)]
    (by decide +kernel) (.cons prime_2 (.cons prime_3 (.cons prime_757 (.cons prime_12149 (.cons prime_31649 .nil)))))
theorem prime_5239247429827 :
    Nat.Prime 5239247429827 := order_5239247429827.1
theorem order_10427374428728808478656897599072717 :
    Nat.Prime 10427374428728808478656897599072717 ∧
    orderOf ((2 : Nat) : ZMod 10427374428728808478656897599072717) =
      10427374428728808478656897599072717 - 1 :=
  pratt 10427374428728808478656897599072717 2
    [(2, 2), (294793, 1), (4229279, 1), (399082391, 1), (5239247429827, 1)]
    (by decide +kernel) (.cons prime_2 (.cons prime_294793 (.cons prime_4229279 (.cons prime_399082391 (.cons prime_5239247429827 .nil)))))
theorem prime_10427374428728808478656897599072717 :
    Nat.Prime 10427374428728808478656897599072717 := order_10427374428728808478656897599072717.1
theorem order_28948022309329048855892746252171976963363056481941647379679742748393362948097 :
    Nat.Prime 28948022309329048855892746252171976963363056481941647379679742748393362948097 ∧
    orderOf ((5 : Nat) : ZMod 28948022309329048855892746252171976963363056481941647379679742748393362948097) =
      28948022309329048855892746252171976963363056481941647379679742748393362948097 - 1 :=
  pratt 28948022309329048855892746252171976963363056481941647379679742748393362948097 5
    [(2, 32), (3, 2), (1709, 1), (24859, 1), (1690502597179744445941507, 1), (10427374428728808478656897599072717, 1)]
    (by decide +kernel) (.cons prime_2 (.cons prime_3 (.cons prime_1709 (.cons prime_24859 (.cons prime_1690502597179744445941507 (.cons prime_10427374428728808478656897599072717 .nil))))))
theorem prime_28948022309329048855892746252171976963363056481941647379679742748393362948097 :
    Nat.Prime 28948022309329048855892746252171976963363056481941647379679742748393362948097 := order_28948022309329048855892746252171976963363056481941647379679742748393362948097.1

end ZkHash.Primes
