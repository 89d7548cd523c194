import Verif.Spec.MerklePath

set_option autoImplicit false

/-!
# The root over copies of one leaf (C93)
-/

namespace ZkHash.Spec

variable {F : Type _}

/-- The root of the perfect tree of depth `k` over copies of `x`: compress the root of depth `k - 1` with itself. -/
def doubled (c : Nat → F → F → Option F) : Nat → F → Option F
  | 0, x => some x
  | k + 1, x => (doubled c k x).bind fun y => c k y y

end ZkHash.Spec
