import Mathlib.Analysis.SpecialFunctions.Log.Base
import Mathlib.Data.Nat.Choose.Basic
import Verif.Model.SageMatrix

set_option autoImplicit false

/-!
# Model of the choice of the exponent and the round numbers in `/repo/poseidon2_rust_params.sage`

The script computes with floating-point numbers; the model computes with real numbers (`log(x, b)` is `Real.logb b x`).
Tests that the script evaluates are propositions here, decided classically. Variables that the script reads without setting
them (an exception) are `none`.
-/

namespace ZkHash.Sage

/-- `log(x, base)` of Python's `math`. -/
noncomputable def log (x base : ℝ) : ℝ := Real.logb base x

/-- `get_alpha(p)`, `poseidon2_rust_params.sage` lines 24-28: the loop over `range(3, p)` leaves `alpha` at the first value
that is coprime to `p-1`, or at the last value of the range. -/
def getAlpha (p : Nat) : Option Nat :=
  let r := List.range' 3 (p - 3)
  (r.find? fun alpha => Nat.gcd alpha (p - 1) = 1).or r.getLast?

/-- `get_sbox_cost(R_F, R_P, N, t)`, lines 32-33. -/
def getSboxCost (R_F R_P t : Nat) : Nat := t * R_F + R_P

/-- `get_size_cost(R_F, R_P, N, t)`, lines 35-37. -/
noncomputable def getSizeCost (R_F R_P N t : Nat) : Nat := N * R_F + ⌈(N : ℝ) / t⌉₊ * R_P

/-- `sat_inequiv_alpha(p, t, R_F, R_P, alpha, M)` for `alpha > 0`, lines 84-104, with the globals `FIELD_SIZE` and
`NUM_CELLS`. `R_F` is even at the only call, so `R_F / 2.0` is a natural number, and so are `over` and `under`. The
result `inf` of line 100 is a floating-point overflow, which the real logarithm does not have. -/
def SatInequivAlpha (FIELD_SIZE p t R_F R_P alpha M : Nat) : Prop :=
  let R_F_1 : ℝ := if (M : ℝ) ≤ (⌊log p 2 - ((alpha : ℝ) - 1) / 2⌋ : ℝ) * (t + 1) then 6 else 10
  let R_F_2 : ℝ := 1 + (⌈log 2 alpha * min (M : ℝ) FIELD_SIZE⌉ : ℝ) + (⌈log t alpha⌉ : ℝ) - R_P
  let R_F_3 : ℝ := log 2 alpha * min (M : ℝ) (log p 2) - R_P
  let R_F_4 : ℝ := t - 1 + log 2 alpha * min ((M : ℝ) / (t + 1)) (log p 2 / 2) - R_P
  let R_F_5 : ℝ := (t - 2 + (M : ℝ) / (2 * log alpha 2) - R_P) / (t - 1)
  let R_F_max := max (max (max (max ⌈R_F_1⌉ ⌈R_F_2⌉) ⌈R_F_3⌉) ⌈R_F_4⌉) ⌈R_F_5⌉
  let r_temp := t / 3
  let over := (R_F - 1) * t + R_P + r_temp + r_temp * (R_F / 2) + R_P + alpha
  let under := r_temp * (R_F / 2) + R_P + alpha
  let binom_log := log (over.choose under) 2
  let cost_gb4 := ⌈2 * binom_log⌉
  (R_F : ℤ) ≥ R_F_max ∧ cost_gb4 ≥ M

/-- The variables of `find_FD_round_numbers`; `min_cost = float("inf")` is `none`. -/
structure Search where
  R_P : Nat
  R_F : Nat
  min_cost : Option Nat
  max_cost_rf : Nat

/-- `(cost < min_cost) or ((cost == min_cost) and (R_F_t < max_cost_rf))`, line 77. -/
def Search.better (st : Search) (cost R_F_t : Nat) : Bool :=
  match st.min_cost with
  | none => true
  | some c => cost < c || (cost == c && R_F_t < st.max_cost_rf)

open Classical in
/-- The body of the two loops, lines 71-81. The state holds `R_P_t` too, which the body sets (line 75); `R_F_t` is set
anew by the loop. -/
noncomputable def searchStep (FIELD_SIZE p t alpha M : Nat) (security_margin : Bool) (st : Search × Nat) (R_F_t : Nat) :
    Search × Nat :=
  if R_F_t % 2 = 0 ∧ SatInequivAlpha FIELD_SIZE p t R_F_t st.2 alpha M then
    let R_F_t := if security_margin then R_F_t + 2 else R_F_t
    let R_P_t := if security_margin then ⌈(st.2 : ℝ) * 1.075⌉₊ else st.2
    let cost := getSboxCost R_F_t R_P_t t
    if st.1.better cost R_F_t then (⟨R_P_t, R_F_t, some cost, R_F_t⟩, R_P_t) else (st.1, R_P_t)
  else st

/-- `find_FD_round_numbers(p, t, alpha, M, cost_function, security_margin)` with `cost_function = get_sbox_cost`,
lines 58-82: `(R_F, R_P)`. -/
noncomputable def findFDRoundNumbers (FIELD_SIZE p t alpha M : Nat) (security_margin : Bool) : Nat × Nat :=
  let st := (List.range' 1 499).foldl (fun st R_P_t =>
    ((List.range' 4 96).foldl (searchStep FIELD_SIZE p t alpha M security_margin) (st, R_P_t)).1) ⟨0, 0, none, 0⟩
  (st.R_F, st.R_P)

/-- `poseidon_calc_final_numbers_fixed(p, t, alpha, M, security_margin)`, lines 39-56:
`[R_F, R_P, min_sbox_cost, min_size_cost]`. -/
noncomputable def poseidonCalcFinalNumbersFixed (FIELD_SIZE p t alpha M : Nat) (security_margin : Bool) :
    Nat × Nat × Nat × Nat :=
  let n := ⌈log p 2⌉₊
  let N := n * t
  let r := findFDRoundNumbers FIELD_SIZE p t alpha M security_margin
  (r.1, r.2, getSboxCost r.1 r.2 t, getSizeCost r.1 r.2 N t)

/-- The whole script for a prime `p` and a width `t` (lines 9 and 17): the exponent (line 30), the round numbers (line 109),
and the constants and matrices (lines 621-632). -/
noncomputable def script (p t : Nat) [Fact p.Prime] :
    Option (Nat × Nat × Nat × List Nat × List (List (ZMod p)) × List (List (ZMod p)) × List (ZMod p)) := do
  let alpha ← getAlpha p
  let r := poseidonCalcFinalNumbersFixed (p.log2 + 1) p t alpha 128 true
  let g ← generate p t r.1 r.2.1
  pure (alpha, r.1, r.2.1, g)

end ZkHash.Sage
