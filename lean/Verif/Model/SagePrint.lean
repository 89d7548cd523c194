import Verif.Model.SageGen
import Mathlib.Data.Nat.Digits.Defs

set_option autoImplicit false

/-!
# Model of the printing of field elements in `/repo/poseidon2_rust_params.sage`

Strings are lists of ASCII bytes, as in `Verif/Model/Fields.lean`.
-/

namespace ZkHash.Sage

/-- The character of a hexadecimal digit, as printed by Python's `hex`. -/
def hexChar (d : Nat) : UInt8 := if d < 10 then UInt8.ofNat (48 + d) else UInt8.ofNat (87 + d)

/-- Python's `hex(n)` for an integer `n ≥ 0`: `0x`, then the digits without leading zeros (one `0` for zero). -/
def pyHex (n : Nat) : List UInt8 :=
  [48, 120] ++ if n = 0 then [48] else (Nat.digits 16 n).reverse.map hexChar

/-- Python's `s.zfill(w)` for a string without a sign: zeros on the left up to width `w`. -/
def zfill (s : List UInt8) (w : Nat) : List UInt8 := List.replicate (w - s.length) 48 ++ s

/-- `to_hex`, `poseidon2_rust_params.sage` lines 634-640: the string it prints between `from_hex("` and `")`. The field
element `value` is the integer `int(value)`. -/
def toHex (p value : Nat) : List UInt8 :=
  let l := (pyHex (p - 1)).length
  let l := if l % 2 == 1 then l + 1 else l
  let value := (pyHex value).drop 2
  [48, 120] ++ zfill value (l - 2)

end ZkHash.Sage
