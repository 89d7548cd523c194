set_option autoImplicit false

/-!
# Degree of the external rounds of Neptune of width 4
-/

namespace ZkHash.Spec

/-- The degree of the words after `r` external rounds of width 4: `1, 4, 16, 56, 200, 712, ...`. -/
def neptune4Degree : Nat → Nat
  | 0 => 1
  | 1 => 4
  | 2 => 16
  | r + 3 => 3 * neptune4Degree (r + 2) + 2 * neptune4Degree (r + 1)

end ZkHash.Spec
