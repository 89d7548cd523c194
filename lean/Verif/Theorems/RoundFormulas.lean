import Verif.Spec.RoundFormulas
import Verif.Instances.Shapes
import Verif.Model.Gmimc
import Verif.Model.Neptune

set_option autoImplicit false

/-!
# Round numbers of the shipped GMiMC and Neptune instances against their documentation: C68
-/

namespace ZkHash

open Spec

namespace RoundFormulas

theorem ceil_logb {d n : Nat} {x : ℝ} (hd : 1 < d) (hx : 0 < x) (h1 : (d : ℝ) ^ n < x) (h2 : x ≤ (d : ℝ) ^ (n + 1)) :
    ⌈Real.logb d x⌉₊ = n + 1 := by
  have hd' : (1 : ℝ) < d := by exact_mod_cast hd
  rw [Nat.ceil_eq_iff (by omega)]
  constructor
  · rw [Real.lt_logb_iff_rpow_lt hd' hx, Nat.add_sub_cancel, Real.rpow_natCast]
    exact h1
  · rw [Real.logb_le_iff_le_rpow hd' hx, Real.rpow_natCast]
    exact h2

/-- The formula for GMiMC from an integer check. -/
theorem gmimc_eq {p d t n : Nat} (hd : 1 < d) (hp : 0 < p) (h1 : d ^ n < p ^ 2) (h2 : p ^ 2 ≤ d ^ (n + 1)) :
    gmimcRounds p d t = max (2 + 2 * (t + t ^ 2)) (n + 1 + 2 * t) := by
  unfold gmimcRounds
  have e : 2 * Real.logb d p = Real.logb d ((p : ℝ) ^ 2) := by
    rw [Real.logb_pow]
    norm_num
  rw [e, ceil_logb (n := n) hd (by positivity) (by exact_mod_cast h1) (by exact_mod_cast h2)]

/-- The formula for Neptune from an integer check. -/
theorem neptune_eq {kappa p d t n : Nat} (hd : 1 < d) (hp : 0 < p) (ht : 0 < t)
    (h1 : 64 * d ^ n < min (2 ^ kappa) p * t) (h2 : min (2 ^ kappa) p * t ≤ 64 * d ^ (n + 1)) :
    neptunePartialRounds kappa p d t = (9 * (n + 1 + (3 + t)) + 7) / 8 := by
  have hd' : (1 : ℝ) < d := by exact_mod_cast hd
  have hp' : (0 : ℝ) < p := by exact_mod_cast hp
  have ht' : (0 : ℝ) < t := by exact_mod_cast ht
  have hM : 0 < min (2 ^ kappa) p := by
    rw [Nat.lt_min]
    exact ⟨by positivity, hp⟩
  have hM' : (0 : ℝ) < (min (2 ^ kappa) p : ℕ) := by exact_mod_cast hM
  have hmin : min (kappa : ℝ) (Real.logb 2 p) = Real.logb 2 ((min (2 ^ kappa) p : ℕ) : ℝ) := by
    have e : (kappa : ℝ) = Real.logb 2 ((2 ^ kappa : ℕ) : ℝ) := by
      push_cast
      rw [Real.logb_pow, Real.logb_self_eq_one (by norm_num), mul_one]
    rcases le_total (2 ^ kappa) p with h | h
    · rw [min_eq_left h, min_eq_left, e]
      rw [e]
      exact Real.logb_le_logb_of_le (by norm_num) (by positivity) (by exact_mod_cast h)
    · rw [min_eq_right h, min_eq_right]
      rw [e]
      exact Real.logb_le_logb_of_le (by norm_num) hp' (by exact_mod_cast h)
  have e64 : (6 : ℝ) = Real.logb 2 64 := by
    rw [show (64 : ℝ) = 2 ^ (6 : ℕ) by norm_num, Real.logb_pow, Real.logb_self_eq_one (by norm_num)]
    norm_num
  obtain ⟨M, hMd⟩ : ∃ M, M = min (2 ^ kappa) p := ⟨_, rfl⟩
  unfold neptunePartialRounds
  rw [hmin]
  rw [← hMd] at h1 h2 hM hM' ⊢
  have hx : Real.logb d 2 * (Real.logb 2 (M : ℝ) - 6) + 3 + t + Real.logb d t =
      Real.logb d ((M : ℝ) / 64 * t) + ((3 + t : ℕ) : ℝ) := by
    rw [e64, ← Real.logb_div hM'.ne' (by norm_num), Real.mul_logb (by norm_num) (by norm_num) (by norm_num),
      Real.logb_mul (by positivity) ht'.ne']
    push_cast
    ring
  have hpos : (d : ℝ) ^ n < (M : ℝ) / 64 * t := by
    have h1' : (64 : ℝ) * (d : ℝ) ^ n < M * t := by exact_mod_cast h1
    linarith [h1', show (M : ℝ) / 64 * t = M * t / 64 by ring]
  have hle : (M : ℝ) / 64 * t ≤ (d : ℝ) ^ (n + 1) := by
    have h2' : (M : ℝ) * t ≤ 64 * (d : ℝ) ^ (n + 1) := by exact_mod_cast h2
    linarith [h2', show (M : ℝ) / 64 * t = M * t / 64 by ring]
  have hge1 : (1 : ℝ) ≤ (M : ℝ) / 64 * t := (one_le_pow₀ hd'.le).trans hpos.le
  rw [hx, Nat.ceil_add_natCast (Real.logb_nonneg hd' hge1), ceil_logb hd (by linarith) hpos hle]
  rw [Nat.ceil_eq_iff (by omega)]
  obtain ⟨k, hk⟩ : ∃ k, k = n + 1 + (3 + t) := ⟨_, rfl⟩
  rw [← hk]
  have hk0 : 0 < k := by omega
  have hlow : 8 * ((9 * k + 7) / 8 - 1) < 9 * k := by omega
  have hupp : 9 * k ≤ 8 * ((9 * k + 7) / 8) := by omega
  have hlow' : (8 : ℝ) * (((9 * k + 7) / 8 - 1 : ℕ) : ℝ) < 9 * k := by exact_mod_cast hlow
  have hupp' : (9 : ℝ) * k ≤ 8 * (((9 * k + 7) / 8 : ℕ) : ℝ) := by exact_mod_cast hupp
  constructor
  · norm_num
    linarith
  · norm_num
    linarith

/-- The integer checks for GMiMC: the returned number is that of the formula. -/
def gmimcEval (p d t : Nat) : Option Nat :=
  ((List.range 300).find? fun n => decide (d ^ n < p ^ 2 ∧ p ^ 2 ≤ d ^ (n + 1))).map fun n =>
    max (2 + 2 * (t + t ^ 2)) (n + 1 + 2 * t)

/-- Likewise for Neptune. -/
def neptuneEval (kappa p d t : Nat) : Option Nat :=
  ((List.range 300).find? fun n => decide (64 * d ^ n < min (2 ^ kappa) p * t ∧ min (2 ^ kappa) p * t ≤ 64 * d ^ (n + 1))).map
    fun n => (9 * (n + 1 + (3 + t)) + 7) / 8

theorem gmimcEval_sound {p d t r : Nat} (hd : 1 < d) (hp : 0 < p) (h : gmimcEval p d t = some r) :
    gmimcRounds p d t = r := by
  unfold gmimcEval at h
  obtain ⟨n, hn, rfl⟩ := Option.map_eq_some_iff.mp h
  have := List.find?_some hn
  simp only [decide_eq_true_eq] at this
  exact gmimc_eq hd hp this.1 this.2

theorem neptuneEval_sound {kappa p d t r : Nat} (hd : 1 < d) (hp : 0 < p) (ht : 0 < t)
    (h : neptuneEval kappa p d t = some r) : neptunePartialRounds kappa p d t = r := by
  unfold neptuneEval at h
  obtain ⟨n, hn, rfl⟩ := Option.map_eq_some_iff.mp h
  have := List.find?_some hn
  simp only [decide_eq_true_eq] at this
  exact neptune_eq hd hp ht this.1 this.2

end RoundFormulas

/-- The fields for which the shipped round numbers deviate from the formulas in the comments. -/
def oddFields : List Nat := [Fields.bn256Modulus, Fields.pallasModulus, Fields.vestaModulus]

theorem gmimc_rounds_checked : ∀ S ∈ Instances.gmimc, 1 < S.d ∧ 0 < S.modulus ∧
    RoundFormulas.gmimcEval S.modulus S.d S.t =
      some (S.rounds_f - if S.t ≤ 9 ∧ S.modulus ∈ oddFields then 1 else 0) ∧ 0 < S.rounds_f := by decide +kernel

theorem neptune_rounds_checked : ∀ S ∈ Instances.neptune, 1 < S.d ∧ 0 < S.modulus ∧ 0 < S.t ∧
    RoundFormulas.neptuneEval 128 S.modulus S.d S.t =
      some (S.rounds_p + if S.modulus = Fields.bn256Modulus ∨ S.modulus = Fields.vestaModulus then 1 else 0) ∧
    ∃ r ∈ RoundFormulas.neptuneEval 127 S.modulus S.d S.t, r ≤ S.rounds_p := by decide +kernel

/-- **C68** for GMiMC: the number of rounds of every shipped instance is the one of the documented formula, except
that the instances of width up to 9 over BN256, Pallas and Vesta have one round more. -/
theorem C68_gmimc (S : Shape) (hS : S ∈ Instances.gmimc) :
    S.rounds_f = gmimcRounds S.modulus S.d S.t + if S.t ≤ 9 ∧ S.modulus ∈ oddFields then 1 else 0 := by
  obtain ⟨hd, hp, h, h0⟩ := gmimc_rounds_checked S hS
  rw [RoundFormulas.gmimcEval_sound hd hp h]
  split <;> omega

/-- **C68** for Neptune: with `kappa = 128` the number of partial rounds of every shipped instance is the one of the
documented formula, except that the instances over BN256 and Vesta have one round less. -/
theorem C68_neptune (S : Shape) (hS : S ∈ Instances.neptune) :
    neptunePartialRounds 128 S.modulus S.d S.t =
      S.rounds_p + if S.modulus = Fields.bn256Modulus ∨ S.modulus = Fields.vestaModulus then 1 else 0 := by
  obtain ⟨hd, hp, ht, h, -⟩ := neptune_rounds_checked S hS
  exact RoundFormulas.neptuneEval_sound hd hp ht h

/-- **C68**, `kappa = 127`: every shipped Neptune instance has at least the partial rounds of the formula. -/
theorem C68_neptune_127 (S : Shape) (hS : S ∈ Instances.neptune) :
    neptunePartialRounds 127 S.modulus S.d S.t ≤ S.rounds_p := by
  obtain ⟨hd, hp, ht, -, r, h, hr⟩ := neptune_rounds_checked S hS
  rw [RoundFormulas.neptuneEval_sound hd hp ht h]
  exact hr

/-- The exceptions exist: 15 GMiMC and 2 Neptune instances. -/
example : (Instances.gmimc.filter fun S => S.t ≤ 9 ∧ S.modulus ∈ oddFields).length = 15 ∧
    (Instances.neptune.filter fun S => S.modulus = Fields.bn256Modulus ∨ S.modulus = Fields.vestaModulus).length = 2 := by
  decide +kernel

end ZkHash
