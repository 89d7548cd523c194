import Verif.Proofs.SageRounds
import Verif.Proofs.PoseidonCheck

set_option autoImplicit false

/-!
# The search for the round numbers, evaluated by the kernel
-/

namespace ZkHash.Sage

open PoseidonSource.Fast (force force_eq)

/-! ## Binomial coefficients -/

/-- `k` of the binomial coefficient of `a + b` over `b`. -/
noncomputable def chooseF (a b : Nat) : (Nat → Bool) → Bool :=
  Nat.rec (motive := fun _ => (Nat → Bool) → Bool) (fun k => k 1)
    (fun i ih k => ih fun x => force (Nat.div (Nat.mul x (Nat.add a (Nat.succ i))) (Nat.succ i)) k) b

theorem chooseF_eq (a b : Nat) (k : Nat → Bool) : chooseF a b k = k ((a + b).choose b) := by
  induction b generalizing k with
  | zero => simp [chooseF]
  | succ b ih =>
    have : chooseF a (b + 1) k = chooseF a b fun x => force (x * (a + (b + 1)) / (b + 1)) k := rfl
    rw [this, ih, force_eq]
    congr 1
    have := Nat.add_one_mul_choose_eq (a + b) b
    apply Nat.div_eq_of_eq_mul_left (Nat.succ_pos _)
    rw [← Nat.add_assoc, ← this]
    ring

/-- The test of the binomial coefficient. -/
noncomputable def big (a b : Nat) : Bool :=
  Bool.rec (motive := fun _ => Bool) (chooseF a b fun c => Nat.ble (2 ^ 127 + 1) (Nat.mul c c)) true
    (Bool.rec (motive := fun _ => Bool) false (Nat.ble 64 b) (Nat.ble 64 a))

theorem chooseF_iff (a b N : Nat) : (chooseF a b fun c => Nat.ble (N + 1) (Nat.mul c c)) = true ↔
    N < ((a + b).choose b) ^ 2 := by
  rw [chooseF_eq, Nat.ble_eq, pow_two]
  exact Nat.succ_le_iff

theorem choose_128 : 2 ^ 127 < ((64 + 64).choose 64) ^ 2 := (chooseF_iff 64 64 (2 ^ 127)).mp (by decide +kernel)

theorem big_iff (a b : Nat) : big a b = true ↔ 2 ^ 127 < ((a + b).choose b) ^ 2 := by
  have main := chooseF_iff a b (2 ^ 127)
  unfold big
  cases ha : Nat.ble 64 a with
  | false => exact main
  | true =>
    cases hb : Nat.ble 64 b with
    | false => exact main
    | true =>
      simp only [true_iff]
      have ha := Nat.ble_eq.mp ha
      have hb := Nat.ble_eq.mp hb
      have h1 : (64 + 64).choose 64 ≤ (a + b).choose b := by
        calc (64 + 64).choose 64 ≤ (64 + b).choose 64 := Nat.choose_le_choose 64 (by omega)
          _ = (64 + b).choose b := Nat.choose_symm_add
          _ ≤ (a + b).choose b := Nat.choose_le_choose b (by omega)
      exact lt_of_lt_of_le choose_128 (Nat.pow_le_pow_left h1 2)

/-! ## The search -/

/-- The test in integers, evaluated: `K` is the largest of the bounds on `R_F + R_P`. -/
noncomputable def satF (t alpha c1 K B R_F R_P : Nat) : Bool :=
  Bool.rec (motive := fun _ => Bool) false
    (Bool.rec (motive := fun _ => Bool) false
      (Bool.rec (motive := fun _ => Bool) false
        (Bool.rec (motive := fun _ => Bool) false
          (force (Nat.div t 3) fun r => force (Nat.add (Nat.add (Nat.mul (Nat.sub R_F 1) t) R_P) r) fun a =>
            force (Nat.add (Nat.add (Nat.mul r (Nat.div R_F 2)) R_P) alpha) fun b => big a b)
          (Nat.ble B (Nat.add (Nat.mul R_F (Nat.sub t 1)) R_P)))
        (Nat.ble K (Nat.add R_F R_P)))
      (Nat.ble c1 R_F))
    (Nat.beq (Nat.mod R_F 2) 0)

theorem satF_iff {t alpha c1 k2 kt k3 k4 k5 R_F R_P : Nat} :
    satF t alpha c1 (max (1 + k2 + kt) (max k3 (t - 1 + k4))) (t - 2 + k5) R_F R_P = true ↔
      R_F % 2 = 0 ∧ SatInt t R_F R_P alpha 128 c1 k2 kt k3 k4 k5 := by
  unfold satF SatInt
  rw [force_eq, force_eq, force_eq]
  have e : (R_F - 1) * t + R_P + t / 3 + t / 3 * (R_F / 2) + R_P + alpha =
    ((R_F - 1) * t + R_P + t / 3) + (t / 3 * (R_F / 2) + R_P + alpha) := by omega
  rw [e]
  have hb := big_iff ((R_F - 1) * t + R_P + t / 3) (t / 3 * (R_F / 2) + R_P + alpha)
  cases h0 : Nat.beq (Nat.mod R_F 2) 0 with
  | false =>
    have : ¬ R_F % 2 = 0 := fun h => by
      have : Nat.beq (R_F % 2) 0 = true := Nat.beq_eq.mpr h
      rw [show Nat.mod R_F 2 = R_F % 2 from rfl, this] at h0
      cases h0
    simp [this]
  | true =>
    have h0 : R_F % 2 = 0 := Nat.beq_eq.mp h0
    cases h1 : Nat.ble c1 R_F with
    | false =>
      have : ¬ c1 ≤ R_F := fun h => by rw [Nat.ble_eq.mpr h] at h1; cases h1
      simp [this]
    | true =>
      have h1 := Nat.ble_eq.mp h1
      cases h2 : Nat.ble (max (1 + k2 + kt) (max k3 (t - 1 + k4))) (Nat.add R_F R_P) with
      | false =>
        have : ¬ max (1 + k2 + kt) (max k3 (t - 1 + k4)) ≤ R_F + R_P := fun h => by
          rw [show Nat.add R_F R_P = R_F + R_P from rfl, Nat.ble_eq.mpr h] at h2; cases h2
        simp only [false_iff, Bool.false_eq_true]
        rintro ⟨_, _, g1, g2, g3, _⟩
        exact this (by omega)
      | true =>
        have h2 : max (1 + k2 + kt) (max k3 (t - 1 + k4)) ≤ R_F + R_P := Nat.ble_eq.mp h2
        cases h3 : Nat.ble (t - 2 + k5) (Nat.add (Nat.mul R_F (Nat.sub t 1)) R_P) with
        | false =>
          have : ¬ t - 2 + k5 ≤ R_F * (t - 1) + R_P := fun h => by
            rw [show Nat.add (Nat.mul R_F (Nat.sub t 1)) R_P = R_F * (t - 1) + R_P from rfl, Nat.ble_eq.mpr h] at h3; cases h3
          simp [this]
        | true =>
          have h3 : t - 2 + k5 ≤ R_F * (t - 1) + R_P := Nat.ble_eq.mp h3
          refine ⟨fun h => ⟨h0, h1, by omega, by omega, by omega, h3, hb.mp h⟩, fun h => hb.mpr h.2.2.2.2.2.2⟩

/-- The state of the search as numbers: cost 0 stands for infinity. -/
def enc (R_P R_F c m : Nat) : Search := ⟨R_P, R_F, if c = 0 then none else some c, m⟩

/-- `Search.better`, evaluated. -/
noncomputable def betterF (c m cost R_F : Nat) : Bool :=
  Nat.beq c 0 || (Nat.blt cost c || (Nat.beq cost c && Nat.blt R_F m))

theorem betterF_eq (R_P R_F c m cost R : Nat) : (enc R_P R_F c m).better cost R = betterF c m cost R := by
  unfold Search.better enc betterF
  cases c with
  | zero => rfl
  | succ c =>
    rw [Bool.eq_iff_iff]
    simp [Nat.blt_eq]

/-- There is a cost `c` already, and `R_F_t`, `R_P_t` cost as much. -/
noncomputable def pruneF (t c R_F_t R_P_t : Nat) : Bool :=
  Bool.rec (motive := fun _ => Bool) (Nat.ble c (Nat.add (Nat.mul t R_F_t) R_P_t)) false (Nat.beq c 0)

theorem pruneF_imp {t c R_F_t R_P_t : Nat} (h : pruneF t c R_F_t R_P_t = true) : c ≠ 0 ∧ c ≤ t * R_F_t + R_P_t := by
  unfold pruneF at h
  cases hc : Nat.beq c 0 with
  | true => rw [hc] at h; cases h
  | false =>
    rw [hc] at h
    exact ⟨fun h0 => (by rw [Nat.beq_eq.mpr h0] at hc; cases hc), Nat.ble_eq.mp h⟩

/-- `fuel` turns of the inner loop from `R_F_t`, left early when the cost can only be worse. -/
noncomputable def innerF (t alpha c1 K B fuel : Nat) :
    Nat → Nat → Nat → Nat → Nat → Nat → (Nat → Nat → Nat → Nat → Bool) → Bool :=
  Nat.rec (motive := fun _ => Nat → Nat → Nat → Nat → Nat → Nat → (Nat → Nat → Nat → Nat → Bool) → Bool)
    (fun _ R_P R_F c m _ k => k R_P R_F c m)
    (fun _ ih R_F_t R_P R_F c m R_P_t k =>
      Bool.rec (motive := fun _ => Bool)
        (force (Nat.succ R_F_t) fun next =>
        Bool.rec (motive := fun _ => Bool) (ih next R_P R_F c m R_P_t k)
          (force (Nat.add R_F_t 2) fun R_F_t => force (Nat.div (Nat.add (Nat.mul 43 R_P_t) 39) 40) fun R_P_t =>
            force (Nat.add (Nat.mul t R_F_t) R_P_t) fun cost =>
            Bool.rec (motive := fun _ => Bool) (ih next R_P R_F c m R_P_t k) (ih next R_P_t R_F_t cost R_F_t R_P_t k)
              (betterF c m cost R_F_t))
          (satF t alpha c1 K B R_F_t R_P_t)) (k R_P R_F c m) (pruneF t c R_F_t R_P_t)) fuel

theorem innerF_succ (t alpha c1 K B fuel R_F_t R_P R_F c m R_P_t : Nat) (k : Nat → Nat → Nat → Nat → Bool) :
    innerF t alpha c1 K B (fuel + 1) R_F_t R_P R_F c m R_P_t k =
      Bool.rec (motive := fun _ => Bool)
        (force (R_F_t + 1) fun next =>
        Bool.rec (motive := fun _ => Bool) (innerF t alpha c1 K B fuel next R_P R_F c m R_P_t k)
          (force (R_F_t + 2) fun R_F_t => force ((43 * R_P_t + 39) / 40) fun R_P_t =>
            force (t * R_F_t + R_P_t) fun cost =>
            Bool.rec (motive := fun _ => Bool) (innerF t alpha c1 K B fuel next R_P R_F c m R_P_t k)
              (innerF t alpha c1 K B fuel next R_P_t R_F_t cost R_F_t R_P_t k) (betterF c m cost R_F_t))
          (satF t alpha c1 K B R_F_t R_P_t)) (k R_P R_F c m) (pruneF t c R_F_t R_P_t) := rfl

/-- `fuel` turns of the outer loop from `R_P_t`. -/
noncomputable def outerF (t alpha c1 K B fuel : Nat) :
    Nat → Nat → Nat → Nat → Nat → (Nat → Nat → Nat → Nat → Bool) → Bool :=
  Nat.rec (motive := fun _ => Nat → Nat → Nat → Nat → Nat → (Nat → Nat → Nat → Nat → Bool) → Bool)
    (fun _ R_P R_F c m k => k R_P R_F c m)
    (fun _ ih R_P_t R_P R_F c m k => force (Nat.succ R_P_t) fun next =>
      innerF t alpha c1 K B 96 4 R_P R_F c m R_P_t fun R_P R_F c m => ih next R_P R_F c m k) fuel

theorem ceil_margin (r : Nat) : ⌈(r : ℝ) * 1.075⌉₊ = (43 * r + 39) / 40 := by
  apply le_antisymm
  · rw [Nat.ceil_le]
    have : (43 * r : ℝ) ≤ 40 * ((43 * r + 39) / 40 : Nat) := by
      have : 43 * r ≤ 40 * ((43 * r + 39) / 40) := by omega
      exact_mod_cast this
    norm_num
    linarith
  · by_contra h
    push Not at h
    have h1 : ⌈(r : ℝ) * 1.075⌉₊ ≤ (43 * r + 39) / 40 - 1 := by omega
    have h2 : 1 ≤ (43 * r + 39) / 40 := by omega
    rw [Nat.ceil_le] at h1
    have : 40 * ((43 * r + 39) / 40 - 1) < 43 * r := by omega
    have : (40 * (((43 * r + 39) / 40 - 1 : Nat) : ℝ)) < 43 * r := by exact_mod_cast this
    norm_num at h1
    linarith

section

variable {n p t alpha a c1 k2 kt k3 k4 k5 : Nat}

open Classical in
theorem searchStep_eq (h : Consts n p t alpha 128 a c1 k2 kt k3 k4 k5) (R_P R_F c m R_P_t R_F_t : Nat) (ht : 0 < t) :
    searchStep n p t alpha 128 true (enc R_P R_F c m, R_P_t) R_F_t =
      if satF t alpha c1 (max (1 + k2 + kt) (max k3 (t - 1 + k4))) (t - 2 + k5) R_F_t R_P_t then
        if betterF c m (t * (R_F_t + 2) + (43 * R_P_t + 39) / 40) (R_F_t + 2) then
          (enc ((43 * R_P_t + 39) / 40) (R_F_t + 2) (t * (R_F_t + 2) + (43 * R_P_t + 39) / 40) (R_F_t + 2),
            (43 * R_P_t + 39) / 40)
        else (enc R_P R_F c m, (43 * R_P_t + 39) / 40)
      else (enc R_P R_F c m, R_P_t) := by
  unfold searchStep
  simp only [h.sat_iff, if_true, ceil_margin, getSboxCost, betterF_eq]
  by_cases hs : R_F_t % 2 = 0 ∧ SatInt t R_F_t R_P_t alpha 128 c1 k2 kt k3 k4 k5
  · rw [if_pos hs, if_pos (satF_iff.mpr hs)]
    have : t * (R_F_t + 2) + (43 * R_P_t + 39) / 40 ≠ 0 := by positivity
    simp only [enc, if_neg this]
  · rw [if_neg hs, if_neg (fun h => hs (satF_iff.mp h))]

theorem inner_fixed (h : Consts n p t alpha 128 a c1 k2 kt k3 k4 k5) (ht : 0 < t) (fuel : Nat) :
    ∀ {R_F_t R_P R_F c m R_P_t : Nat}, c ≠ 0 → c ≤ t * R_F_t + R_P_t →
    ((List.range' R_F_t fuel).foldl (searchStep n p t alpha 128 true) (enc R_P R_F c m, R_P_t)).1 = enc R_P R_F c m := by
  induction fuel with
  | zero => intros; rfl
  | succ fuel ih =>
    intro R_F_t R_P R_F c m R_P_t hc hle
    rw [List.range'_succ, List.foldl_cons, searchStep_eq h _ _ _ _ _ _ ht]
    have hm : t * (R_F_t + 1) = t * R_F_t + t := by ring
    have hm2 : t * (R_F_t + 2) = t * R_F_t + 2 * t := by ring
    split
    · have hb : ¬ betterF c m (t * (R_F_t + 2) + (43 * R_P_t + 39) / 40) (R_F_t + 2) = true := by
        unfold betterF
        simp only [Bool.or_eq_true, Bool.and_eq_true, Nat.beq_eq, Nat.blt_eq]
        omega
      rw [if_neg hb]
      exact ih hc (by omega)
    · exact ih hc (by omega)

theorem innerF_imp (h : Consts n p t alpha 128 a c1 k2 kt k3 k4 k5) (ht : 0 < t) (fuel : Nat) :
    ∀ {R_F_t R_P R_F c m R_P_t : Nat} {k : Nat → Nat → Nat → Nat → Bool},
    innerF t alpha c1 (max (1 + k2 + kt) (max k3 (t - 1 + k4))) (t - 2 + k5) fuel R_F_t R_P R_F c m R_P_t k = true →
    ∃ R_P' R_F' c' m', ((List.range' R_F_t fuel).foldl (searchStep n p t alpha 128 true) (enc R_P R_F c m, R_P_t)).1 =
      enc R_P' R_F' c' m' ∧ k R_P' R_F' c' m' = true := by
  induction fuel with
  | zero => intro R_F_t R_P R_F c m R_P_t k h; exact ⟨_, _, _, _, rfl, h⟩
  | succ fuel ih =>
    intro R_F_t R_P R_F c m R_P_t k hk
    rw [innerF_succ, force_eq, force_eq, force_eq, force_eq] at hk
    cases hpr : pruneF t c R_F_t R_P_t with
    | true =>
      rw [hpr] at hk
      exact ⟨_, _, _, _, inner_fixed h ht _ (pruneF_imp hpr).1 (pruneF_imp hpr).2, hk⟩
    | false =>
    rw [hpr] at hk
    dsimp only at hk
    rw [List.range'_succ, List.foldl_cons, searchStep_eq h _ _ _ _ _ _ ht]
    cases hs : satF t alpha c1 (max (1 + k2 + kt) (max k3 (t - 1 + k4))) (t - 2 + k5) R_F_t R_P_t with
    | false =>
      rw [hs] at hk
      exact ih hk
    | true =>
      rw [hs] at hk
      rw [if_pos rfl]
      cases hb : betterF c m (t * (R_F_t + 2) + (43 * R_P_t + 39) / 40) (R_F_t + 2) with
      | false =>
        simp only [hb] at hk
        exact ih hk
      | true =>
        simp only [hb] at hk
        exact ih hk

theorem outerF_imp (h : Consts n p t alpha 128 a c1 k2 kt k3 k4 k5) (ht : 0 < t) (fuel : Nat) :
    ∀ {R_P_t R_P R_F c m : Nat} {k : Nat → Nat → Nat → Nat → Bool},
    outerF t alpha c1 (max (1 + k2 + kt) (max k3 (t - 1 + k4))) (t - 2 + k5) fuel R_P_t R_P R_F c m k = true →
    ∃ R_P' R_F' c' m', (List.range' R_P_t fuel).foldl (fun st R_P_t =>
      ((List.range' 4 96).foldl (searchStep n p t alpha 128 true) (st, R_P_t)).1) (enc R_P R_F c m) =
      enc R_P' R_F' c' m' ∧ k R_P' R_F' c' m' = true := by
  induction fuel with
  | zero => intro R_P_t R_P R_F c m k h; exact ⟨_, _, _, _, rfl, h⟩
  | succ fuel ih =>
    intro R_P_t R_P R_F c m k hk
    have hk : force (R_P_t + 1) (fun next => innerF t alpha c1 (max (1 + k2 + kt) (max k3 (t - 1 + k4))) (t - 2 + k5) 96 4
      R_P R_F c m R_P_t fun R_P R_F c m =>
        outerF t alpha c1 (max (1 + k2 + kt) (max k3 (t - 1 + k4))) (t - 2 + k5) fuel next R_P R_F c m k) = true := hk
    rw [force_eq] at hk
    obtain ⟨R_P', R_F', c', m', h1, h2⟩ := innerF_imp h ht 96 hk
    rw [List.range'_succ (s := R_P_t), List.foldl_cons, h1]
    exact ih h2

/-- `f` holds of all numbers below `m`. -/
noncomputable def allBelow (m : Nat) (f : Nat → Bool) : Bool :=
  Nat.rec (motive := fun _ => Bool) true (fun i ih => Bool.rec (motive := fun _ => Bool) false ih (f i)) m

theorem allBelow_imp {m : Nat} {f : Nat → Bool} (h : allBelow m f = true) : ∀ i, i < m → f i = true := by
  induction m with
  | zero => intro i hi; omega
  | succ m ih =>
    have h : Bool.rec (motive := fun _ => Bool) false (allBelow m f) (f m) = true := h
    intro i hi
    cases hf : f m with
    | false => rw [hf] at h; cases h
    | true =>
      rw [hf] at h
      rcases Nat.lt_succ_iff_lt_or_eq.mp hi with hi | rfl
      · exact ih h i hi
      · exact hf

/-- No round numbers that pass the test are, with the margin, cheaper than `c`. -/
noncomputable def optOk (t alpha c1 K B c : Nat) : Bool :=
  allBelow (c / t) fun R_F => allBelow c fun R_P =>
    Bool.rec (motive := fun _ => Bool)
      (Bool.rec (motive := fun _ => Bool) true false (satF t alpha c1 K B R_F R_P))
      true (Nat.ble c (Nat.add (Nat.mul t (Nat.add R_F 2)) (Nat.div (Nat.add (Nat.mul 43 R_P) 39) 40)))

/-- The check: the bounds, the result of the search, the test for the result itself, and its optimality. -/
noncomputable def searchOk (n p t alpha a c1 k2 kt k3 k4 k5 R_F R_P : Nat) : Bool :=
  decide (Consts n p t alpha 128 a c1 k2 kt k3 k4 k5) &&
    (force (max (1 + k2 + kt) (max k3 (t - 1 + k4))) fun K => force (t - 2 + k5) fun B =>
      (outerF t alpha c1 K B 499 1 0 0 0 0 fun R_P' R_F' _ _ => Nat.beq R_P' R_P && Nat.beq R_F' R_F) &&
      (satF t alpha c1 K B R_F R_P && optOk t alpha c1 K B (t * R_F + R_P)))

theorem search_of {R_F R_P : Nat} (h : searchOk n p t alpha a c1 k2 kt k3 k4 k5 R_F R_P = true) :
    findFDRoundNumbers n p t alpha 128 true = (R_F, R_P) := by
  unfold searchOk at h
  rw [force_eq, force_eq, Bool.and_eq_true, Bool.and_eq_true, decide_eq_true_eq] at h
  obtain ⟨h1, h2, _⟩ := h
  obtain ⟨R_P', R_F', c', m', e, h⟩ := outerF_imp h1 (by have := h1.t_ge; omega) 499 h2
  simp only [Bool.and_eq_true] at h
  unfold findFDRoundNumbers
  have e0 : (⟨0, 0, none, 0⟩ : Search) = enc 0 0 0 0 := rfl
  rw [e0, e, enc]
  simp only [Prod.mk.injEq]
  exact ⟨Nat.beq_eq.mp h.2, Nat.beq_eq.mp h.1⟩

theorem sat_of {R_F R_P : Nat} (h : searchOk n p t alpha a c1 k2 kt k3 k4 k5 R_F R_P = true) :
    SatInequivAlpha n p t R_F R_P alpha 128 := by
  unfold searchOk at h
  rw [force_eq, force_eq, Bool.and_eq_true, Bool.and_eq_true, Bool.and_eq_true, decide_eq_true_eq] at h
  obtain ⟨h1, _, h2, _⟩ := h
  exact (h1.sat_iff R_F R_P).mpr (satF_iff.mp h2).2

theorem optimal_of {R_F R_P : Nat} (h : searchOk n p t alpha a c1 k2 kt k3 k4 k5 R_F R_P = true) (R_F' R_P' : Nat)
    (he : R_F' % 2 = 0) (hs : SatInequivAlpha n p t R_F' R_P' alpha 128) :
    t * R_F + R_P ≤ t * (R_F' + 2) + ⌈(R_P' : ℝ) * 1.075⌉₊ := by
  unfold searchOk at h
  rw [force_eq, force_eq, Bool.and_eq_true, Bool.and_eq_true, Bool.and_eq_true, decide_eq_true_eq] at h
  obtain ⟨h1, _, _, h2⟩ := h
  rw [ceil_margin]
  by_contra hc
  push Not at hc
  generalize t * R_F + R_P = c at h2 hc
  have ht : 0 < t := by have := h1.t_ge; omega
  have hF : R_F' < c / t := by
    have : R_F' + 2 ≤ c / t := (Nat.le_div_iff_mul_le ht).mpr (by rw [Nat.mul_comm]; omega)
    omega
  have := allBelow_imp (allBelow_imp h2 R_F' hF) R_P' (by omega)
  have hb : Nat.ble c (Nat.add (Nat.mul t (Nat.add R_F' 2)) (Nat.div (Nat.add (Nat.mul 43 R_P') 39) 40)) = false := by
    cases hb : Nat.ble c (Nat.add (Nat.mul t (Nat.add R_F' 2)) (Nat.div (Nat.add (Nat.mul 43 R_P') 39) 40)) with
    | false => rfl
    | true =>
      have hb : c ≤ t * (R_F' + 2) + (43 * R_P' + 39) / 40 := Nat.ble_eq.mp hb
      omega
  rw [hb, satF_iff.mpr ⟨he, (h1.sat_iff _ _).mp hs⟩] at this
  cases this

end

end ZkHash.Sage
