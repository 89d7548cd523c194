import Verif.Model.SageRounds

set_option autoImplicit false

/-!
# The inequalities for the round numbers, in integers
-/

namespace ZkHash.Sage

/-- The ceiling of a logarithm. -/
theorem ceil_eq_of_pow {alpha k Y e : Nat} (ha : 1 < alpha) (he : 0 < e) (hk : 1 ≤ k) (h1 : alpha ^ (e * (k - 1)) < Y)
    (h2 : Y ≤ alpha ^ (e * k)) {x : ℝ} (hx : (e : ℝ) * x = Real.logb alpha Y) : ⌈x⌉ = (k : ℤ) := by
  have ha' : (1 : ℝ) < alpha := by exact_mod_cast ha
  have he' : (0 : ℝ) < e := by exact_mod_cast he
  have hY : (0 : ℝ) < Y := by exact_mod_cast (Nat.zero_lt_of_lt h1)
  rw [Int.ceil_eq_iff]
  constructor
  · have : ((e * (k - 1) : Nat) : ℝ) < Real.logb alpha Y := by
      rw [Real.lt_logb_iff_rpow_lt ha' hY, Real.rpow_natCast]
      exact_mod_cast h1
    rw [← hx, Nat.cast_mul, Nat.cast_sub hk] at this
    have := lt_of_mul_lt_mul_left this he'.le
    push_cast at this ⊢
    exact this
  · have : Real.logb alpha Y ≤ ((e * k : Nat) : ℝ) := by
      rw [Real.logb_le_iff_le_rpow ha' hY, Real.rpow_natCast]
      exact_mod_cast h2
    rw [← hx, Nat.cast_mul] at this
    exact_mod_cast le_of_mul_le_mul_left this he'

theorem logb_min {b x y : ℝ} (hb : 1 < b) (hx : 0 < x) (hy : 0 < y) :
    min (Real.logb b x) (Real.logb b y) = Real.logb b (min x y) := by
  rcases le_total x y with h | h
  · rw [min_eq_left h, min_eq_left ((Real.logb_le_logb hb hx hy).mpr h)]
  · rw [min_eq_right h, min_eq_right ((Real.logb_le_logb hb hy hx).mpr h)]

theorem logb_two_pow (m : Nat) : Real.logb 2 ((2 : ℝ) ^ m) = m := by
  rw [← Real.rpow_natCast, Real.logb_rpow (by norm_num) (by norm_num)]

theorem logb_chain {a y : ℝ} : Real.logb a 2 * Real.logb 2 y = Real.logb a y :=
  Real.mul_logb (by norm_num) (by norm_num) (by norm_num)

/-- What the integers `c1, ..., k5` have to satisfy to stand for the real bounds. -/
structure Consts (n p t alpha M a c1 k2 kt k3 k4 k5 : Nat) : Prop where
  alpha_eq : alpha = 2 * a + 1
  a_pos : 1 ≤ a
  t_ge : 2 ≤ t
  M_pos : 1 ≤ M
  low : 2 ^ (n - 1) ≤ p
  high : p < 2 ^ n
  n_pos : 1 ≤ n
  one : c1 = if (M : Int) ≤ ((n - 1 : Nat) - a : Int) * (t + 1) then 6 else 10
  two : 1 ≤ k2 ∧ alpha ^ (k2 - 1) < 2 ^ min M n ∧ 2 ^ min M n ≤ alpha ^ k2
  two' : 1 ≤ kt ∧ alpha ^ (kt - 1) < t ∧ t ≤ alpha ^ kt
  three : 1 ≤ k3 ∧ alpha ^ (k3 - 1) < min (2 ^ M) p ∧ min (2 ^ M) p ≤ alpha ^ k3
  four : 1 ≤ k4 ∧ alpha ^ (2 * (t + 1) * (k4 - 1)) < min (2 ^ (2 * M)) (p ^ (t + 1)) ∧
    min (2 ^ (2 * M)) (p ^ (t + 1)) ≤ alpha ^ (2 * (t + 1) * k4)
  five : 1 ≤ k5 ∧ alpha ^ (2 * (k5 - 1)) < 2 ^ M ∧ 2 ^ M ≤ alpha ^ (2 * k5)

instance (n p t alpha M a c1 k2 kt k3 k4 k5 : Nat) : Decidable (Consts n p t alpha M a c1 k2 kt k3 k4 k5) :=
  decidable_of_iff (alpha = 2 * a + 1 ∧ 1 ≤ a ∧ 2 ≤ t ∧ 1 ≤ M ∧ 2 ^ (n - 1) ≤ p ∧ p < 2 ^ n ∧ 1 ≤ n ∧
    (c1 = if (M : Int) ≤ ((n - 1 : Nat) - a : Int) * (t + 1) then 6 else 10) ∧
    (1 ≤ k2 ∧ alpha ^ (k2 - 1) < 2 ^ min M n ∧ 2 ^ min M n ≤ alpha ^ k2) ∧
    (1 ≤ kt ∧ alpha ^ (kt - 1) < t ∧ t ≤ alpha ^ kt) ∧
    (1 ≤ k3 ∧ alpha ^ (k3 - 1) < min (2 ^ M) p ∧ min (2 ^ M) p ≤ alpha ^ k3) ∧
    (1 ≤ k4 ∧ alpha ^ (2 * (t + 1) * (k4 - 1)) < min (2 ^ (2 * M)) (p ^ (t + 1)) ∧
      min (2 ^ (2 * M)) (p ^ (t + 1)) ≤ alpha ^ (2 * (t + 1) * k4)) ∧
    (1 ≤ k5 ∧ alpha ^ (2 * (k5 - 1)) < 2 ^ M ∧ 2 ^ M ≤ alpha ^ (2 * k5)))
    ⟨fun ⟨h1, h2, h3, h4, h5, h6, h7, h8, h9, h10, h11, h12, h13⟩ => ⟨h1, h2, h3, h4, h5, h6, h7, h8, h9, h10, h11, h12, h13⟩,
      fun ⟨h1, h2, h3, h4, h5, h6, h7, h8, h9, h10, h11, h12, h13⟩ => ⟨h1, h2, h3, h4, h5, h6, h7, h8, h9, h10, h11, h12, h13⟩⟩

/-- The test in integers. -/
def SatInt (t R_F R_P alpha M c1 k2 kt k3 k4 k5 : Nat) : Prop :=
  c1 ≤ R_F ∧ 1 + k2 + kt ≤ R_F + R_P ∧ k3 ≤ R_F + R_P ∧ t - 1 + k4 ≤ R_F + R_P ∧ t - 2 + k5 ≤ R_F * (t - 1) + R_P ∧
    2 ^ (M - 1) < (((R_F - 1) * t + R_P + t / 3 + t / 3 * (R_F / 2) + R_P + alpha).choose (t / 3 * (R_F / 2) + R_P + alpha)) ^ 2

theorem Consts.sat_iff {n p t alpha M a c1 k2 kt k3 k4 k5 : Nat} (h : Consts n p t alpha M a c1 k2 kt k3 k4 k5)
    (R_F R_P : Nat) :
    SatInequivAlpha n p t R_F R_P alpha M ↔ SatInt t R_F R_P alpha M c1 k2 kt k3 k4 k5 := by
  have ha : 1 < alpha := by have := h.alpha_eq; have := h.a_pos; omega
  have ha' : (1 : ℝ) < alpha := by exact_mod_cast ha
  have hp : 0 < p := lt_of_lt_of_le (by positivity) h.low
  have hp' : (0 : ℝ) < p := by exact_mod_cast hp
  have htpos : (0 : ℝ) < (t : ℝ) - 1 := by
    have : (2 : ℝ) ≤ t := by exact_mod_cast h.t_ge
    linarith
  have e1 : ⌊log p 2 - ((alpha : ℝ) - 1) / 2⌋ = ((n - 1 : Nat) : Int) - a := by
    have : ((alpha : ℝ) - 1) / 2 = ((a : Int) : ℝ) := by
      rw [h.alpha_eq]; push_cast; ring
    rw [this, Int.floor_sub_intCast]
    congr 1
    rw [log, Int.floor_eq_iff]
    constructor
    · have : ((n - 1 : Nat) : ℝ) ≤ Real.logb 2 p := by
        rw [Real.le_logb_iff_rpow_le (by norm_num) hp', Real.rpow_natCast]
        exact_mod_cast h.low
      exact_mod_cast this
    · have : Real.logb 2 p < ((n - 1 + 1 : Nat) : ℝ) := by
        rw [Real.logb_lt_iff_lt_rpow (by norm_num) hp', Real.rpow_natCast, Nat.sub_add_cancel h.n_pos]
        exact_mod_cast h.high
      exact_mod_cast this
  have e2 : ⌈log 2 alpha * min (M : ℝ) n⌉ = (k2 : ℤ) := by
    refine ceil_eq_of_pow (e := 1) ha one_pos h.two.1 (by simpa using h.two.2.1) (by simpa using h.two.2.2) ?_
    rw [log, Nat.cast_one, one_mul, ← Nat.cast_min, Nat.cast_pow, Nat.cast_ofNat, ← logb_chain (y := 2 ^ min M n),
      logb_two_pow]
  have e2' : ⌈log t alpha⌉ = (kt : ℤ) := by
    refine ceil_eq_of_pow (e := 1) ha one_pos h.two'.1 (by simpa using h.two'.2.1) (by simpa using h.two'.2.2) ?_
    rw [log, Nat.cast_one, one_mul]
  have e3 : ⌈log 2 alpha * min (M : ℝ) (log p 2)⌉ = (k3 : ℤ) := by
    refine ceil_eq_of_pow (e := 1) ha one_pos h.three.1 (by rw [one_mul]; exact h.three.2.1) (by rw [one_mul]; exact h.three.2.2) ?_
    rw [log, log, Nat.cast_one, one_mul, ← logb_two_pow M, logb_min (by norm_num) (by positivity) hp', logb_chain]
    push_cast
    rfl
  have e4 : ⌈log 2 alpha * min ((M : ℝ) / (t + 1)) (log p 2 / 2)⌉ = (k4 : ℤ) := by
    refine ceil_eq_of_pow (e := 2 * (t + 1)) ha (by omega) h.four.1 h.four.2.1 h.four.2.2 ?_
    have ht1 : (0 : ℝ) < (t : ℝ) + 1 := by positivity
    have : ((2 * (t + 1) : Nat) : ℝ) * (log 2 alpha * min ((M : ℝ) / (t + 1)) (log p 2 / 2)) =
        log 2 alpha * min (Real.logb 2 ((2 : ℝ) ^ (2 * M))) (Real.logb 2 ((p : ℝ) ^ (t + 1))) := by
      rw [logb_two_pow, Real.logb_pow, mul_left_comm, mul_min_of_nonneg _ _ (by positivity)]
      congr 2
      · push_cast; field_simp
      · rw [log]; push_cast; field_simp
    rw [this, logb_min (by norm_num) (by positivity) (by positivity), log, logb_chain]
    push_cast
    rfl
  have e5 : ⌈(M : ℝ) / (2 * log alpha 2)⌉ = (k5 : ℤ) := by
    refine ceil_eq_of_pow (e := 2) ha two_pos h.five.1 h.five.2.1 h.five.2.2 ?_
    have hl : Real.logb 2 alpha ≠ 0 := (Real.logb_pos (by norm_num) ha').ne'
    rw [log, Nat.cast_pow, Nat.cast_ofNat, Real.logb_pow, ← Real.inv_logb 2 (alpha : ℝ)]
    field_simp
  unfold SatInequivAlpha SatInt
  simp only [ge_iff_le, max_le_iff, and_assoc]
  have c1' : ⌈(if (M : ℝ) ≤ (⌊log p 2 - ((alpha : ℝ) - 1) / 2⌋ : ℝ) * (t + 1) then (6 : ℝ) else 10)⌉ ≤ (R_F : ℤ) ↔ c1 ≤ R_F := by
    rw [e1, h.one]
    have hc : ((M : ℝ) ≤ ((((n - 1 : Nat) : Int) - a : Int) : ℝ) * (t + 1)) ↔ (M : Int) ≤ ((n - 1 : Nat) - a : Int) * (t + 1) := by
      rw [← Int.cast_natCast (R := ℝ) M]
      exact_mod_cast Iff.rfl
    by_cases hh : (M : Int) ≤ ((n - 1 : Nat) - a : Int) * (t + 1)
    · rw [if_pos (hc.mpr hh), if_pos hh, Int.ceil_le]; norm_cast
    · rw [if_neg (fun h => hh (hc.mp h)), if_neg hh, Int.ceil_le]; norm_cast
  have c2 : ⌈(1 + (⌈log 2 alpha * min (M : ℝ) n⌉ : ℝ) + (⌈log t alpha⌉ : ℝ) - R_P : ℝ)⌉ ≤ (R_F : ℤ) ↔
      1 + k2 + kt ≤ R_F + R_P := by
    rw [e2, e2', Int.ceil_le, sub_le_iff_le_add]
    norm_cast
  have c3 : ⌈(log 2 alpha * min (M : ℝ) (log p 2) - R_P : ℝ)⌉ ≤ (R_F : ℤ) ↔ k3 ≤ R_F + R_P := by
    rw [Int.ceil_sub_natCast, e3]; omega
  have c4 : ⌈((t : ℝ) - 1 + log 2 alpha * min ((M : ℝ) / (t + 1)) (log p 2 / 2) - R_P : ℝ)⌉ ≤ (R_F : ℤ) ↔
      t - 1 + k4 ≤ R_F + R_P := by
    have : ((t : ℝ) - 1 + log 2 alpha * min ((M : ℝ) / (t + 1)) (log p 2 / 2) - R_P : ℝ) =
        log 2 alpha * min ((M : ℝ) / (t + 1)) (log p 2 / 2) + (((t : Int) - 1 - R_P : Int) : ℝ) := by
      push_cast; ring
    rw [this, Int.ceil_add_intCast, e4]
    have := h.t_ge
    omega
  have c5 : ⌈(((t : ℝ) - 2 + (M : ℝ) / (2 * log alpha 2) - R_P) / (t - 1) : ℝ)⌉ ≤ (R_F : ℤ) ↔
      t - 2 + k5 ≤ R_F * (t - 1) + R_P := by
    rw [Int.ceil_le, div_le_iff₀ htpos]
    have : ((t : ℝ) - 2 + (M : ℝ) / (2 * log alpha 2) - R_P ≤ ((R_F : Int) : ℝ) * ((t : ℝ) - 1)) ↔
        (M : ℝ) / (2 * log alpha 2) ≤ (((R_F : Int) * ((t : Int) - 1) + R_P + 2 - t : Int) : ℝ) := by
      push_cast
      constructor <;> intro h <;> linarith
    rw [this, ← Int.ceil_le, e5]
    have ht := h.t_ge
    obtain ⟨s, rfl⟩ : ∃ s, t = s + 2 := ⟨t - 2, by omega⟩
    rw [show s + 2 - 1 = s + 1 by omega, show s + 2 - 2 = s by omega]
    push_cast
    have : ((R_F : Int) * ((s : Int) + 2 - 1)) = ((R_F * (s + 1) : Nat) : Int) := by push_cast; ring
    rw [this]
    omega
  rw [c1', c2, c3, c4, c5]
  refine and_congr_right fun _ => and_congr_right fun _ => and_congr_right fun _ => and_congr_right fun _ =>
    and_congr_right fun _ => ?_
  generalize hC : ((R_F - 1) * t + R_P + t / 3 + t / 3 * (R_F / 2) + R_P + alpha).choose (t / 3 * (R_F / 2) + R_P + alpha) = C
  have hCpos : 0 < C := by
    rw [← hC]
    exact Nat.choose_pos (by omega)
  have hC' : (0 : ℝ) < (C : ℝ) ^ 2 := by positivity
  have hM : (M : ℤ) = ((M - 1 : Nat) : ℤ) + 1 := by have := h.M_pos; omega
  rw [hM, Int.add_one_le_iff, Int.lt_ceil, log, show (2 : ℝ) * Real.logb 2 C = Real.logb 2 ((C : ℝ) ^ 2) by
    rw [Real.logb_pow]; norm_num, Int.cast_natCast, Real.lt_logb_iff_rpow_lt (by norm_num) hC', Real.rpow_natCast]
  exact_mod_cast Iff.rfl

end ZkHash.Sage
