import Verif.Proofs.RoundNumbers
import Verif.Theorems.ScriptOutput
import Verif.Theorems.PoseidonInstances

set_option autoImplicit false

/-!
# The round numbers and exponents of the shipped instances: C60
-/

namespace ZkHash

open Sage

/-- `get_alpha` returns the least exponent from 3 on that is coprime to `p - 1`. -/
theorem C60_getAlpha {p : Nat} (hp : 5 ≤ p) (d : Nat) : getAlpha p = some d ↔
    3 ≤ d ∧ d < p ∧ Nat.Coprime d (p - 1) ∧ ∀ a, 3 ≤ a → a < d → ¬ Nat.Coprime a (p - 1) := by
  have hf : ∀ d, ((List.range' 3 (p - 3)).find? fun alpha => decide (Nat.gcd alpha (p - 1) = 1)) = some d ↔
      3 ≤ d ∧ d < p ∧ Nat.Coprime d (p - 1) ∧ ∀ a, 3 ≤ a → a < d → ¬ Nat.Coprime a (p - 1) := by
    intro d
    rw [List.find?_range'_eq_some]
    simp only [decide_eq_true_eq, List.mem_range'_1, Nat.Coprime, Bool.not_eq_true', decide_eq_false_iff_not]
    constructor
    · rintro ⟨h1, ⟨h2, h3⟩, h4⟩
      exact ⟨h2, by omega, h1, h4⟩
    · rintro ⟨h1, h2, h3, h4⟩
      exact ⟨h3, ⟨h1, by omega⟩, h4⟩
  have hn : ((List.range' 3 (p - 3)).find? fun alpha => decide (Nat.gcd alpha (p - 1) = 1)) ≠ none := by
    rw [Ne, List.find?_range'_eq_none]
    intro h
    have := h (p - 2) (by omega) (by omega)
    have hc : Nat.gcd (p - 2) (p - 1) = 1 := by
      have : Nat.Coprime (p - 2) (p - 2 + 1) := by simp
      rwa [show p - 2 + 1 = p - 1 by omega] at this
    simp [hc] at this
  rw [← hf]
  unfold getAlpha
  dsimp only
  generalize ((List.range' 3 (p - 3)).find? fun alpha => decide (Nat.gcd alpha (p - 1) = 1)) = x at hn ⊢
  cases x with
  | none => exact absurd rfl hn
  | some x => simp

/-- The exponent of every shipped Poseidon2 instance is the one the script chooses. -/
theorem C60_exponent (S : Poseidon2Source) (hS : S ∈ Instances.poseidon2) : getAlpha S.modulus = some S.d := by
  have h : ∀ S ∈ Instances.poseidon2, (decide (5 ≤ S.modulus) && (decide (3 ≤ S.d) && (decide (S.d < S.modulus) &&
      (decide (Nat.gcd S.d (S.modulus - 1) = 1) &&
        decide (∀ a ∈ List.range S.d, 3 ≤ a → ¬ Nat.gcd a (S.modulus - 1) = 1))))) = true := by
    decide +kernel
  have h := h S hS
  simp only [Bool.and_eq_true, decide_eq_true_eq, List.mem_range] at h
  obtain ⟨h0, h1, h2, h3, h4⟩ := h
  exact (C60_getAlpha h0 S.d).mpr ⟨h1, h2, h3, fun a ha hd => h4 a hd ha⟩

/-- The two costs that the script returns with the round numbers are multiples: each of the `t R_F + R_P` S-boxes has as many
bits as the modulus. -/
theorem sizeCost_eq {p t R_F R_P : Nat} (hp : p.Prime) (h2 : 2 < p) (ht : 0 < t) :
    getSizeCost R_F R_P (⌈log p 2⌉₊ * t) t = (p.log2 + 1) * (t * R_F + R_P) := by
  have h1 : 2 ^ p.log2 ≤ p := Nat.log2_self_le (by omega)
  have h3 : p < 2 ^ (p.log2 + 1) := Nat.lt_log2_self
  have hne : 2 ^ p.log2 ≠ p := by
    intro e
    rcases Nat.eq_zero_or_pos p.log2 with h | h
    · rw [h] at e
      omega
    · have : 2 ∣ p := e ▸ dvd_pow_self 2 (by omega)
      rcases (Nat.dvd_prime hp).mp this with h | h <;> omega
  have hpos : (0 : ℝ) < p := by exact_mod_cast hp.pos
  have hc : ⌈log p 2⌉₊ = p.log2 + 1 := by
    unfold log
    rw [Nat.ceil_eq_iff (by omega)]
    constructor
    · rw [Real.lt_logb_iff_rpow_lt (by norm_num) hpos, Nat.add_sub_cancel, Real.rpow_natCast]
      exact_mod_cast lt_of_le_of_ne h1 hne
    · rw [Real.logb_le_iff_le_rpow (by norm_num) hpos, Real.rpow_natCast]
      exact_mod_cast h3.le
  unfold getSizeCost
  have ht' : (t : ℝ) ≠ 0 := by exact_mod_cast ht.ne'
  rw [hc, Nat.cast_mul, mul_div_cancel_right₀ _ ht', Nat.ceil_natCast]
  ring

/-- **C60**, the round numbers: the script's search returns those of the shipped instance, with the number of S-boxes and
their size in bits. -/
theorem C60_round_numbers (S : Poseidon2Source) (hS : S ∈ Instances.poseidon2) (hF : Fact S.modulus.Prime) :
    poseidonCalcFinalNumbersFixed (S.modulus.log2 + 1) S.modulus S.t S.d 128 true =
      (S.rounds_f, S.rounds_p, S.t * S.rounds_f + S.rounds_p,
        (S.modulus.log2 + 1) * (S.t * S.rounds_f + S.rounds_p)) := by
  obtain ⟨a, c1, k2, kt, k3, k4, k5, h⟩ := Instances.poseidon2_rounds S hS
  have := search_of h
  have hc : ∀ S ∈ Instances.poseidon2, (decide (2 < S.modulus) && decide (0 < S.t)) = true := by decide +kernel
  have hc := hc S hS
  simp only [Bool.and_eq_true, decide_eq_true_eq] at hc
  unfold poseidonCalcFinalNumbersFixed
  simp only [this, getSboxCost, sizeCost_eq hF.out hc.1 hc.2]

/-- **C60**, security: the round numbers of every shipped instance satisfy the inequalities of the script for 128 bits. -/
theorem C60_inequalities (S : Poseidon2Source) (hS : S ∈ Instances.poseidon2) :
    SatInequivAlpha (S.modulus.log2 + 1) S.modulus S.t S.rounds_f S.rounds_p S.d 128 := by
  obtain ⟨a, c1, k2, kt, k3, k4, k5, h⟩ := Instances.poseidon2_rounds S hS
  exact sat_of h

/-- **C60**, optimality: no round numbers that satisfy the inequalities have fewer S-boxes once the security margin is added,
in or beyond the ranges that the script searches. -/
theorem C60_optimal (S : Poseidon2Source) (hS : S ∈ Instances.poseidon2) (R_F R_P : Nat) (he : R_F % 2 = 0)
    (h : SatInequivAlpha (S.modulus.log2 + 1) S.modulus S.t R_F R_P S.d 128) :
    S.t * S.rounds_f + S.rounds_p ≤ S.t * (R_F + 2) + ⌈(R_P : ℝ) * 1.075⌉₊ := by
  obtain ⟨a, c1, k2, kt, k3, k4, k5, h'⟩ := Instances.poseidon2_rounds S hS
  exact optimal_of h' R_F R_P he h

/-- **C60** and C57: run with the modulus and the width of a shipped instance, the script returns the exponent, the round
numbers and the tables of the instance. -/
theorem C60_script (S : Poseidon2Source) (hS : S ∈ Instances.poseidon2) (hF : Fact S.modulus.Prime) :
    ∃ matrix_full, script S.modulus S.t =
        some (S.d, S.rounds_f, S.rounds_p, S.rc.flatten, matrix_full, S.matInternalF, S.diagF) ∧
      matrix_full = Spec.rowsOf (Spec.externalMatrix S.t) := by
  obtain ⟨full, h1, h2⟩ := C57_script_output S hS hF
  have h3 := C60_round_numbers S hS hF
  refine ⟨full, ?_, h2⟩
  unfold script
  rw [C60_exponent S hS]
  simp only [Option.bind_eq_bind, Option.bind_some, Option.pure_def, h3, h1]

/-- Every shipped Poseidon instance has the modulus, width, exponent and round numbers of a Poseidon2 instance. -/
theorem C60_poseidon_shapes (S : PoseidonSource) (hS : S ∈ Instances.poseidon) : ∃ S2 ∈ Instances.poseidon2,
    S.modulus = S2.modulus ∧ S.t = S2.t ∧ S.d = S2.d ∧ S.rounds_f = S2.rounds_f ∧ S.rounds_p = S2.rounds_p := by
  have h : ∀ S ∈ Instances.poseidon, ∃ S2 ∈ Instances.poseidon2, (Nat.beq S.modulus S2.modulus && (Nat.beq S.t S2.t &&
      (Nat.beq S.d S2.d && (Nat.beq S.rounds_f S2.rounds_f && Nat.beq S.rounds_p S2.rounds_p)))) = true := by
    decide +kernel
  obtain ⟨S2, h2, h⟩ := h S hS
  simp only [Bool.and_eq_true, Nat.beq_eq] at h
  exact ⟨S2, h2, h⟩

/-- **C60** for the shipped Poseidon instances. -/
theorem C60_poseidon (S : PoseidonSource) (hS : S ∈ Instances.poseidon) (hF : Fact S.modulus.Prime) :
    getAlpha S.modulus = some S.d ∧
    poseidonCalcFinalNumbersFixed (S.modulus.log2 + 1) S.modulus S.t S.d 128 true =
      (S.rounds_f, S.rounds_p, S.t * S.rounds_f + S.rounds_p,
        (S.modulus.log2 + 1) * (S.t * S.rounds_f + S.rounds_p)) ∧
    SatInequivAlpha (S.modulus.log2 + 1) S.modulus S.t S.rounds_f S.rounds_p S.d 128 := by
  obtain ⟨S2, h2, e1, e2, e3, e4, e5⟩ := C60_poseidon_shapes S hS
  rw [e1] at hF
  rw [e1, e2, e3, e4, e5]
  exact ⟨C60_exponent S2 h2, C60_round_numbers S2 h2 hF, C60_inequalities S2 h2⟩

end ZkHash
