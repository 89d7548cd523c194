import Mathlib.Analysis.SpecialFunctions.Log.Base

set_option autoImplicit false

/-!
# The round numbers of GMiMC and Neptune, as documented beside the instances

The comments in `src/gmimc/gmimc_instance_*.rs` lines 10-11 and `src/neptune/neptune_instances.rs` lines 10-11, read over
the real numbers.
-/

namespace ZkHash.Spec

/-- `max(2 + 2 * (t + t^2), ceil(2 * log_d(p)) + 2 * t)` -/
noncomputable def gmimcRounds (p d t : Nat) : Nat :=
  max (2 + 2 * (t + t ^ 2)) (⌈2 * Real.logb d p⌉₊ + 2 * t)

/-- `ceil(1.125 * ceil(log_d(2) * (min(kappa, log_2(p)) - 6) + 3 + t + log_d(t)))` -/
noncomputable def neptunePartialRounds (kappa p d t : Nat) : Nat :=
  ⌈(1.125 : ℝ) * (⌈Real.logb d 2 * (min (kappa : ℝ) (Real.logb 2 p) - 6) + 3 + t + Real.logb d t⌉₊ : ℕ)⌉₊

end ZkHash.Spec
